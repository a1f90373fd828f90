import Verif.Lemmas.Parallel
import Verif.Props.HonestHistory
/-!
# C95: each session behaves as if it were alone
-/

namespace Verif.Spec.Alone
open Verif Verif.Handler Verif.Service Verif.Spec.InFlight

/-- A history; every call is marked: is it a call for the session that is looked at? -/
abbrev Marked := List (Bool × Ext × Call)

/-- The HTTP requests sent for the client kept as `i` by the time `h'`, that had not been sent by the time `h`. -/
def sentSince (i : String) (h h' : Handler) : List Sent :=
  match Dict.get? h'.issuer2rp i, Dict.get? h.issuer2rp i with
  | some c', some c => c'.log.drop c.log.length
  | some c', none => c'.log
  | none, _ => []

/-- What the caller of the own calls sees: what they return or raise and what they send. -/
def observe (i : String) : Marked → Handler → List (Except Exc Ret × List Sent)
  | [], _ => []
  | (own, x, call) :: l, h =>
    let h' := (exec x call h).2
    if own then ((exec x call h).1, sentSince i h h') :: observe i l h' else observe i l h'

/-- What was seen is the same, call by call: results are equal; where one call raised, the other raised the same exception
(or both one of the two by which an ID Token is refused for its nonce); the same was sent. -/
def SameView : List (Except Exc Ret × List Sent) → List (Except Exc Ret × List Sent) → Prop
  | [], [] => True
  | (r, s) :: l, (r', s') :: l' => Agree Refused r r' ∧ s = s' ∧ SameView l l'
  | _, _ => False

/-- The calls alone. -/
def calls (l : Marked) : List (Ext × Call) := l.map Prod.snd

/-- A call for session `k` at the client kept as `i`: a response is finalized that, whatever it verifies to, carries `k`,
or one of the other calls is given `k`.  What the provider answers depends on the request, not on the requests before. -/
def OwnCall (i k : String) : Ext × Call → Prop
  | (x, .finalize j r _) => Forgetful x ∧ j = i ∧ AnswersSession k x r
  | (x, .getTokens s) => Forgetful x ∧ s = k
  | (x, .refresh s _) => Forgetful x ∧ s = k
  | (x, .userInfo s _) => Forgetful x ∧ s = k
  | (_, .hasActive s) => s = k
  | (_, .validToken s) => s = k
  | (_, .logout s _) => s = k
  | (_, .close s j _) => s = k ∧ (j = "" ∨ j = i)
  | _ => False

/-- The call leaves the `behaviour` of the client kept as `i` as it is. -/
def SameBehaviour (i : String) (h : Handler) (xc : Ext × Call) : Prop :=
  (Dict.get? (exec xc.1 xc.2 h).2.issuer2rp i).map (fun c => c.ctx.behaviour) =
    (Dict.get? h.issuer2rp i).map (fun c => c.ctx.behaviour)

end Verif.Spec.Alone

namespace Verif.Props
open Verif Verif.Service Verif.Handler Verif.StateInterface Verif.Spec.Session Verif.Spec.HandlerView Verif.Spec.Wire
open Verif.Spec.Store (KeySpace)
open Verif.Spec.InFlight Verif.Spec.Alone

/-- A history of calls for session `k` among calls for others: the others draw other nonces, do not set up the client
anew and leave its `behaviour`. -/
def Interleaved (K : String → Prop) (i k n : String) : Marked → Handler → Prop
  | [], _ => True
  | (true, x, call) :: l, h => OwnCall i k (x, call) ∧ Interleaved K i k n l (exec x call h).2
  | (false, x, call) :: l, h => CallOk K k (x, call) ∧ ¬ Concerns k (x, call) ∧ NotReplaced i h (x, call) ∧
      FreshNonce n h (x, call) ∧ SameBehaviour i h (x, call) ∧ Interleaved K i k n l (exec x call h).2

variable {K : String → Prop} {k n i : String}

theorem onClient_exact {α : Type} {m : Py Client α} {g : Handler} {c : Client} (hc : Dict.get? g.issuer2rp i = some c) :
    Dict.get? (onClient i m g).2.issuer2rp i = some (m c).2 := by
  have hs : Dict.get? (Dict.set g.issuer2rp i (m c).2) i = some (m c).2 := Dict.get?_set_self _ _ _
  unfold onClient
  rw [hc]
  simp only
  unfold share
  split
  · exact hs
  · split
    · simp only
      have hm : ∀ l : Dict Client, Dict.get? (l.map (fun p => (p.1, sharedClient (m c).2.cfg (m c).2.ctx.behaviour p.2))) i =
          (Dict.get? l i).map (sharedClient (m c).2.cfg (m c).2.ctx.behaviour) := fun l => Dict.get?_map _ _ _
      rw [hm, hs]
      simp [sharedClient]
    · exact hs

/-- Two handlers, in the first of which others are at work as well. -/
structure Alike (K : String → Prop) (n k i : String) (p q : Except Exc Obj) (h h' : Handler) : Prop where
  inv : Inv K k (some (i, p, q)) h
  inv' : Inv K k (some (i, p, q)) h'
  free : Free K n k h
  quiet : AllQuiet (fun v => v = n) k h
  twin : ∃ c c', Dict.get? h.issuer2rp i = some c ∧ Dict.get? h'.issuer2rp i = some c' ∧ Twin n k c c' ∧ Leads n k c.db

theorem own_ok (hk : K k) {xc : Ext × Call} (ho : OwnCall i k xc) :
    CallOk K k xc ∧ (∀ j h, NotReplaced j h xc) ∧ ∀ h, FreshNonce n h xc := by
  obtain ⟨x, call⟩ := xc
  cases call with
  | close s j u => obtain ⟨rfl, _⟩ := ho; exact ⟨hk, fun _ _ => trivial, fun _ => trivial⟩
  | begin a b c d => exact ho.elim
  | clear s => exact ho.elim
  | backchannel j info => exact ho.elim
  | _ => exact ⟨trivial, fun _ _ => trivial, fun _ => trivial⟩

/-- What a call keeps in the busy handler, whoever makes it. -/
theorem busy_step (hK : KeySpace K) (hk : K k) {p q : Except Exc Obj} {h : Handler} {xc : Ext × Call}
    (hi : Inv K k (some (i, p, q)) h) (hf : Free K n k h) (hq : AllQuiet (fun v => v = n) k h) {c : Client}
    (hc : Dict.get? h.issuer2rp i = some c) (hl : Leads n k c.db)
    (h1 : CallOk K k xc) (h2 : NotReplaced i h xc) (h3 : FreshNonce n h xc) :
    Inv K k (some (i, p, q)) (exec xc.1 xc.2 h).2 ∧ Free K n k (exec xc.1 xc.2 h).2 ∧
      AllQuiet (fun v => v = n) k (exec xc.1 xc.2 h).2 ∧
      ∀ c1, Dict.get? (exec xc.1 xc.2 h).2.issuer2rp i = some c1 → Leads n k c1.db := by
  have hw : ∀ j p' q', (some (i, p, q) : Where) = some (j, p', q') → NotReplaced j h xc := by
    intro j p' q' he
    injection he with he
    injection he with he _
    exact he ▸ h2
  have hsp : ∀ j, Spared K n k j h (exec xc.1 xc.2 h).2 _ := fun j => spared_exec hK hi (i := j) xc h1 h3 hw
  have hcs : Dict.get? (stores h) i = some c.db := by rw [get?_stores, hc]; rfl
  refine ⟨inv_exec hK hk hi xc h1 hw, ?_, quiet_exec hK hi xc h1 hq, ?_⟩
  · intro j db' hd
    rcases hsp j db' hd with ⟨db, d1, d2⟩ | ⟨_, d2⟩
    · exact free_acts hK d2 (hf j db d1)
    · exact free_acts hK d2 free_empty
  · intro c1 hc1
    rcases hsp i c1.db (by rw [get?_stores, hc1]; rfl) with ⟨db0, f1, f2⟩ | ⟨f1, _⟩
    · rw [hcs] at f1
      injection f1 with f1
      subst f1
      exact leads_acts hK hk f2 (hf i c.db hcs) hl
    · refine absurd ⟨h2, ?_⟩ f1
      rw [Dict.has_eq, hc]
      rfl

/-- A call of others. -/
theorem other_step (hK : KeySpace K) (hk : K k) {p q : Except Exc Obj} {h h' : Handler} {xc : Ext × Call}
    (ha : Alike K n k i p q h h') (h1 : CallOk K k xc) (hno : ¬ Concerns k xc) (h2 : NotReplaced i h xc)
    (h3 : FreshNonce n h xc) (h4 : SameBehaviour i h xc) : Alike K n k i p q (exec xc.1 xc.2 h).2 h' := by
  obtain ⟨c, c', hc, hc', ht, hl⟩ := ha.twin
  obtain ⟨b1, b2, b3, b4⟩ := busy_step hK hk ha.inv ha.free ha.quiet hc hl h1 h2 h3
  refine ⟨b1, ha.inv', b2, b3, ?_⟩
  have hcs : Dict.get? (stores h) i = some c.db := by rw [get?_stores, hc]; rfl
  obtain ⟨c1, e1, e2⟩ := hasClient_exec ha.inv.plain ⟨c, hc, FrameRel.refl _⟩ xc (drawn_of_ok hK h1) h2
  have hhas : Dict.has h.issuer2rp i = true := by rw [Dict.has_eq, hc]; rfl
  obtain ⟨db1, d1, d2⟩ := record_exec hK hk ha.inv (i := i) xc h1 hno h2 hhas
    (fun j p' q' he => by injection he with he; injection he with he _; exact he.symm) c.db hcs
  have hdb : db1 = c1.db := by
    rw [get?_stores, e1] at d1
    injection d1 with d1
    exact d1.symm
  subst hdb
  have hb : c1.ctx.behaviour = c.ctx.behaviour := by
    unfold SameBehaviour at h4
    rw [e1, hc] at h4
    injection h4
  have hctx : c1.ctx = c.ctx := by
    obtain ⟨bh, hbh⟩ := e2.ctx
    rw [hbh] at hb ⊢
    simp only at hb
    rw [hb]
  have hl1 := b4 c1 e1
  refine ⟨c1, c', e1, hc', ⟨?_, ?_, ?_, ?_, ?_, ?_, ?_, ht.own'⟩, hl1⟩
  · rw [hctx]; exact ht.ctx
  · rw [e2.services]; exact ht.services
  · rw [e2.conf]; exact ht.conf
  · rw [e2.cfg]; exact ht.cfg
  · intro hd
    rw [hctx] at hd
    obtain ⟨k1, k2⟩ := ht.key hd
    obtain ⟨v, hv⟩ := Option.isSome_iff_exists.1 k1
    have := e2.key v hv
    rw [this, k2, hv]
    exact ⟨rfl, rfl⟩
  · rw [d2]; exact ht.record
  · exact ⟨hl1.1.1, hl1.1.2, b3 i c1.db (by rw [get?_stores, e1]; rfl)⟩

theorem agree_ret {α : Type} {f : α → Ret} {E : Exc → Exc → Prop} {m : Py Handler α} {h h' : Handler}
    (ha : Agree E (m h).1 (m h').1) : Agree E (ret f m h).1 (ret f m h').1 := by
  show Agree E ((m h).1.map f) ((m h').1.map f)
  revert ha
  generalize (m h).1 = r
  generalize (m h').1 = r'
  intro ha
  cases r <;> cases r' <;> first | exact ha.elim | skip
  · exact ha
  · exact congrArg f ha

theorem ret_snd {α : Type} {f : α → Ret} {m : Py Handler α} {h : Handler} : (ret f m h).2 = (m h).2 := rfl

theorem ret_congr {α : Type} {f : α → Ret} {m m' : Py Handler α} {h : Handler} (e : m h = m' h) : ret f m h = ret f m' h := by
  show ((m h).1.map f, (m h).2) = ((m' h).1.map f, (m' h).2)
  rw [e]

/-- An own call does one thing at the client of the session. -/
theorem own_exec (hK : KeySpace K) (hk : K k) (hne : i ≠ "") {x : Ext} {call : Call} (ho : OwnCall i k (x, call)) :
    ∃ (α : Type) (f : α → Ret) (m : Py Client α), (Par Refused n k m) ∧
      ∀ (p q : Except Exc Obj) (h : Handler), Inv K k (some (i, p, q)) h → exec x call h = ret f (onClient i m) h := by
  have hs : ∀ {α : Type} (f : α → Ret) (m : Py Client α) (p q : Except Exc Obj) (h : Handler),
      Inv K k (some (i, p, q)) h → ret f (onSession k m) h = ret f (onClient i m) h := by
    intro α f m p q h hi
    refine ret_congr ?_
    unfold onSession
    rw [inv_resolves hi hne]
  cases call with
  | begin a b c d => exact ho.elim
  | clear s => exact ho.elim
  | backchannel j info => exact ho.elim
  | finalize j r b =>
    obtain ⟨hx, rfl, ha⟩ := ho
    exact ⟨_, _, _, par_finalizeClient hK hk hx ha j b, fun p q h _ => rfl⟩
  | getTokens s => obtain ⟨hx, rfl⟩ := ho; exact ⟨_, _, _, par_getTokens hK hk hx, hs _ _⟩
  | refresh s sc => obtain ⟨hx, rfl⟩ := ho; exact ⟨_, _, _, par_refresh hK hk hx sc, hs _ _⟩
  | userInfo s t => obtain ⟨hx, rfl⟩ := ho; exact ⟨_, _, _, par_userInfo hK hk hx t, hs _ _⟩
  | hasActive s => obtain rfl : s = k := ho; exact ⟨_, _, _, par_hasActive x, hs _ _⟩
  | validToken s => obtain rfl : s = k := ho; exact ⟨_, _, _, par_validToken x, hs _ _⟩
  | logout s u => obtain rfl : s = k := ho; exact ⟨_, _, _, par_logout hK hk x u, hs _ _⟩
  | close s j u =>
    obtain ⟨rfl, hj⟩ := ho
    refine ⟨_, Ret.req, logout x s u, par_logout hK hk x u, fun p q h hi => ?_⟩
    have hcl : close x s j u h = onClient i (logout x s u) h := by
      unfold close
      rcases hj with rfl | rfl
      · rw [if_neg (by simp)]
        unfold onSession
        rw [inv_resolves hi hne]
      · rw [if_pos (by simpa using hne)]
    exact ret_congr hcl

/-- An own call, in both handlers. -/
theorem own_step (hK : KeySpace K) (hk : K k) (hne : i ≠ "") {p q : Except Exc Obj} {h h' : Handler} {x : Ext} {call : Call}
    (ha : Alike K n k i p q h h') (ho : OwnCall i k (x, call)) :
    Alike K n k i p q (exec x call h).2 (exec x call h').2 ∧ Agree Refused (exec x call h).1 (exec x call h').1 ∧
      sentSince i h (exec x call h).2 = sentSince i h' (exec x call h').2 := by
  obtain ⟨c, c', hc, hc', ht, hl⟩ := ha.twin
  obtain ⟨h1, h2, h3⟩ := own_ok (n := n) hk ho
  obtain ⟨b1, b2, b3, b4⟩ := busy_step hK hk ha.inv ha.free ha.quiet hc hl h1 (h2 i h) (h3 h)
  have b1' := inv_exec hK hk ha.inv' (x, call) h1 (fun j _ _ _ => h2 j h')
  obtain ⟨α, f, m, hm, he⟩ := own_exec (n := n) hK hk hne ho
  obtain ⟨a1, a2, l, a3, a4⟩ := hm c c' ht
  have e1 : Dict.get? (exec x call h).2.issuer2rp i = some (m c).2 := by
    rw [he p q h ha.inv, ret_snd]; exact onClient_exact hc
  have e1' : Dict.get? (exec x call h').2.issuer2rp i = some (m c').2 := by
    rw [he p q h' ha.inv', ret_snd]; exact onClient_exact hc'
  refine ⟨⟨b1, b1', b2, b3, (m c).2, (m c').2, e1, e1', a2, b4 _ e1⟩, ?_, ?_⟩
  · rw [he p q h ha.inv, he p q h' ha.inv']
    exact agree_ret (by rw [fst_onClient hc, fst_onClient hc']; exact a1)
  · unfold sentSince
    rw [e1, e1', hc, hc']
    simp only [a3, a4, List.drop_left]

theorem alone_run (hK : KeySpace K) (hk : K k) (hne : i ≠ "") {p q : Except Exc Obj} : ∀ (l : Marked) {h h' : Handler},
    Alike K n k i p q h h' → Interleaved K i k n l h →
    SameView (observe i l h) (observe i (l.filter (·.1)) h') ∧
      Alike K n k i p q (run (calls l) h) (run (calls (l.filter (·.1))) h') := by
  intro l
  induction l with
  | nil => intro h h' ha _; exact ⟨trivial, ha⟩
  | cons s l ih =>
    intro h h' ha hi
    obtain ⟨own, x, call⟩ := s
    cases own with
    | true =>
      obtain ⟨i1, i2⟩ := hi
      obtain ⟨s1, s2, s3⟩ := own_step hK hk hne ha i1
      obtain ⟨r1, r2⟩ := ih s1 i2
      exact ⟨⟨s2, s3, r1⟩, r2⟩
    | false =>
      obtain ⟨i1, i2, i3, i4, i5, i6⟩ := hi
      exact ih (other_step hK hk ha i1 i2 i3 i4 i5) i6

/-- After `begin` the session is in flight: the handler has, for it and of others, what the comparison needs. -/
theorem alike_begun {K : String → Prop} (hK : KeySpace K) (h0 : Handler) (hnew : NewHandler h0)
    (before : List (Ext × Call)) (x : Ext) (issuer user : String) (req b : Obj) (url k : String) (h1 : Handler)
    (hbefore : ∀ xc ∈ before, CallOk K k xc) (hkx : K (x.rnd "init_state"))
    (hv : x.rnd "code_verifier" ≠ "") (hn : x.rnd "init_nonce" ≠ "")
    (hmsg : (Dict.keys (x.msg .authorization).defaults).Nodup ∧ "nonce" ∉ (x.msg .authorization).spaced)
    (hbegin : begin_ x issuer user req b (run before h0) = (.ok (url, k), h1))
    (i : String) (hsetup : (clientSetup x issuer user b (run before h0)).1 = .ok i) (hne : i ≠ "")
    (hname : NamedAfterIssuer h1 i) (hgiven : ∀ c, Dict.get? h1.issuer2rp i = some c → NoNonceGiven c req)
    (hdpop : ∀ c, Dict.get? h1.issuer2rp i = some c → Dict.has c.ctx.addOn "dpop" = true → c.dpopKey.isSome)
    (hfresh : FreshNonces (x.rnd "init_nonce") before h0) :
    K k ∧ ∃ p q, Alike K (x.rnd "init_nonce") k i p q h1 h1 := by
  have hk' : k = x.rnd "init_state" := by
    obtain ⟨_, _, _, _, _, b3, _⟩ := begin_ok hbegin
    exact init_key b3
  have hk : K k := hk' ▸ hkx
  have hi0 : Inv K k none (run before h0) :=
    inv_run hK hk before (inv_new hnew.empty hnew.plain) hbefore (fun _ _ _ hw => by cases hw)
  have hf0 : Free K (x.rnd "init_nonce") k (run before h0) := by
    refine (free_run hK hk before (inv_new hnew.empty hnew.plain) hbefore hfresh (fun _ _ _ hw => by cases hw) ?_).1
    intro j db hd
    rw [get?_stores, hnew.empty] at hd
    cases hd
  have hf1 := free_begun hK hkx hi0.plain hbegin hf0
  have hq0 : AllQuiet (fun v => v = x.rnd "init_nonce") k (run before h0) := by
    refine quiet_run hK hk before (inv_new hnew.empty hnew.plain) hbefore (fun _ _ _ hw => by cases hw) ?_
    intro j db hd
    rw [get?_stores, hnew.empty] at hd
    cases hd
  have hgiven' : ∀ j g c, clientSetup x issuer user b (run before h0) = (.ok j, g) → Dict.get? g.issuer2rp j = some c →
      NoNonceGiven c req := by
    intro j g c e1 e2
    obtain ⟨j', g', d, b1, b2, b3, b4⟩ := begin_ok hbegin
    have hpg := (clientSetup_cases x issuer user b hi0.plain).1
    rw [b1] at hpg
    rw [e1] at b1 hsetup
    injection b1 with b0 b1
    injection b0 with b0
    injection hsetup with hsetup
    subst b0 b1 hsetup
    rw [e2] at b2
    injection b2 with b2
    subst b2
    have hc := onClient_exact (m := initAuthorization x req b) e2
    rw [b4] at hc
    obtain ⟨hg1, hg2⟩ := hgiven _ hc
    obtain ⟨bh, hbh⟩ := (begins_init x req b (hK.nonempty _ hkx) c (hpg.clients j c (Dict.get?_eq_some_mem e2))).ctx
    rw [hbh] at hg2
    exact ⟨hg1, hg2⟩
  have hq1 : AllQuiet (fun v => v = x.rnd "init_nonce") k h1 := by
    have := quiet_begin hK (x := x) (issuer := issuer) (user := user) (req := req) (b := b) hi0.plain hq0 hkx
      (fun _ => ⟨rfl, hn, hgiven'⟩)
    rw [hbegin] at this
    exact this
  obtain ⟨_, c1, _, _, _, _, hi1⟩ := inv_begun hK hkx hi0 hbegin hsetup hne hname
  obtain ⟨j, c, areq, a1, a2, a3, a4, a5⟩ := C81_begin_waits hK (run before h0) h1 hi0.plain x issuer user req b url k hkx hv hmsg.1 hbegin
  rw [hsetup] at a1
  injection a1 with a1
  subst a1
  have hci := hname c a2
  have hg := hgiven c a2
  obtain ⟨ver, hw⟩ := a5 (x.rnd "init_nonce") (by rw [hci]; exact hne) (Or.inl ⟨hg, hn, hmsg.2⟩) (a4 hg hn hmsg.2)
  have hcs : Dict.get? (stores h1) i = some c.db := by rw [get?_stores, a2]; rfl
  have hld : Leads (x.rnd "init_nonce") k c.db := by
    refine ⟨⟨?_, hw.index⟩, hw.refreshed⟩
    have := hw.nonce
    unfold getStateByX at this
    split at this
    · next s hs =>
      split at this
      · cases this
      · injection this with this; rw [hs, this]
    · next o ho => injection this with this; cases this
    · cases this
  have hown : Own (x.rnd "init_nonce") k c.db := ⟨hld.1.1, hld.1.2, hq1 i c.db hcs⟩
  have hal : Alike K (x.rnd "init_nonce") k i (getItem c1.db "auth_request" k) (getItem c1.db "pkce" k) h1 h1 :=
    ⟨hi1, hi1, hf1, hq1, c, c, a2, a2, ⟨rfl, rfl, rfl, rfl, fun hd => ⟨hdpop c a2 hd, rfl⟩, rfl, hown, hown⟩, hld⟩
  exact ⟨hk, _, _, hal⟩

/-- **C95.**  A handler is made; any calls are made (`before`); `begin` returns `k` for the client kept as `i`, with the
generated nonce; then calls for `k` (marked) are made in any order among calls for other sessions, with any answers and
failures.  If the others draw other nonces, do not set up the client anew and leave its `behaviour` alone, the calls for `k` return
the same and send the same requests as if the others had not been made (an ID Token that has to be refused for its nonce
may be refused with another exception), and in the end the record of the session is the same. -/
theorem C95_as_if_alone {K : String → Prop} (hK : KeySpace K) (h0 : Handler) (hnew : NewHandler h0)
    (before : List (Ext × Call)) (x : Ext) (issuer user : String) (req b : Obj) (url k : String) (h1 : Handler)
    (hbefore : ∀ xc ∈ before, CallOk K k xc) (hkx : K (x.rnd "init_state"))
    (hv : x.rnd "code_verifier" ≠ "") (hn : x.rnd "init_nonce" ≠ "")
    (hmsg : (Dict.keys (x.msg .authorization).defaults).Nodup ∧ "nonce" ∉ (x.msg .authorization).spaced)
    (hbegin : begin_ x issuer user req b (run before h0) = (.ok (url, k), h1))
    (i : String) (hsetup : (clientSetup x issuer user b (run before h0)).1 = .ok i) (hne : i ≠ "")
    (hname : NamedAfterIssuer h1 i) (hgiven : ∀ c, Dict.get? h1.issuer2rp i = some c → NoNonceGiven c req)
    (hdpop : ∀ c, Dict.get? h1.issuer2rp i = some c → Dict.has c.ctx.addOn "dpop" = true → c.dpopKey.isSome)
    (hfresh : FreshNonces (x.rnd "init_nonce") before h0)
    (l : Marked) (hl : Interleaved K i k (x.rnd "init_nonce") l h1) :
    SameView (observe i l h1) (observe i (l.filter (·.1)) h1) ∧
      sessionInformation (run (calls l) h1) k = sessionInformation (run (calls (l.filter (·.1))) h1) k := by
  obtain ⟨hk, p, q, hal⟩ := alike_begun hK h0 hnew before x issuer user req b url k h1 hbefore hkx hv hn hmsg hbegin i hsetup hne
    hname hgiven hdpop hfresh
  obtain ⟨r1, r2⟩ := alone_run hK hk hne l hal hl
  refine ⟨r1, ?_⟩
  obtain ⟨d, d', e1, e2, e3, _⟩ := r2.twin
  have hres : ∀ {g : Handler} {c : Client} {p q : Except Exc Obj}, Inv K k (some (i, p, q)) g →
      Dict.get? g.issuer2rp i = some c → sessionInformation g k = getState c.db k := by
    intro g c p q hi hc
    unfold sessionInformation getClientFromSessionKey
    rw [inv_resolves hi hne]
    simp only [Dict.getItem_eq_ok.2 hc]
  rw [hres r2.inv e1, hres r2.inv' e2, e3.record]

/-! ## Non-vacuity -/

theorem world_answers (now : Int) (a b n st : String) (code : Val) :
    AnswersSession st (World.ext now a b n) [("code", code), ("state", .str st)] := by
  intro ctx o args v h1 h2
  have h1' : (.ok [("code", code), ("state", .str st)] : Except Exc Obj) = .ok o := h1
  injection h1' with h1'
  subst h1'
  have h2' : (.ok [("code", code), ("state", .str st)] : Except Exc Obj) = .ok v := h2
  injection h2' with h2'
  subst h2'
  rfl

theorem world_forgetful (now : Int) (a b n : String) : Forgetful (World.ext now a b n) := fun _ _ _ => rfl

/-- Another session is started, the own one is finalized, the other one as well, the own tokens are renewed, the other
session is cleared, and the own one is asked for. -/
def mixed : Marked :=
  [(false, World.ext 1002 World.s2 "n2" "", .begin "https://op.example" "" [] []),
   (true, World.ext 1003 "" "" "n1", .finalize "https://op.example" [("code", .str "code1"), ("state", .str World.s1)] []),
   (false, World.ext 1003 "" "" "n2", .finalize "https://op.example" [("code", .str "code2"), ("state", .str World.s2)] []),
   (true, World.ext 1004 "" "" "n1", .refresh World.s1 ""),
   (false, World.ext 1006 "" "" "n2", .clear World.s2),
   (true, World.ext 1007 "" "" "", .validToken World.s1),
   (true, World.ext 1007 "" "" "", .close World.s1 "" "")]

instance (i : String) (h : Handler) (xc : Ext × Call) : Decidable (SameBehaviour i h xc) := by
  unfold SameBehaviour; infer_instance

theorem mixed_interleaved : Interleaved Spec.History.Generated "https://op.example" World.s1 "n1" mixed inFlight := by
  refine ⟨⟨gen_s2, show World.s2 ≠ World.s1 by decide⟩, show World.s2 ≠ World.s1 by decide, fun _ => rfl,
    fresh_of (j := "https://op.example") (by decide) (by decide) (by rfl) (by rfl), by decide +kernel,
    ⟨world_forgetful _ _ _ _, rfl, world_answers _ _ _ _ _ _⟩, trivial, ?_, trivial, trivial, by decide +kernel,
    ⟨world_forgetful _ _ _ _, rfl⟩, show World.s2 ≠ World.s1 by decide, show World.s2 ≠ World.s1 by decide, trivial, trivial,
    by decide +kernel, rfl, ⟨rfl, Or.inl rfl⟩, trivial⟩
  rintro ⟨c, resp, c', hp, hs⟩
  rw [world_parse] at hp
  injection hp with hp _
  injection hp with hp
  injection hp with hp
  subst hp
  exact absurd hs (by decide)

/-- Non-vacuity: in the small world. -/
example : (SameView (observe "https://op.example" mixed inFlight) (observe "https://op.example" (mixed.filter (·.1)) inFlight) ∧
      sessionInformation (run (calls mixed) inFlight) World.s1 =
        sessionInformation (run (calls (mixed.filter (·.1))) inFlight) World.s1) ∧
    (observe "https://op.example" mixed inFlight).map (fun p => (p.1.isOk, p.2.map (·.srv))) =
      [(true, [.accesstoken, .userinfo]), (true, [.refreshToken]), (true, []), (true, [])] ∧
    (sessionInformation (run (calls (mixed.take 4)) inFlight) World.s2).isOk = true :=
  ⟨C95_as_if_alone Props.C10_generated_keys_are_safe World.handler newWorld earlier
    (World.ext 1000 World.s1 "n1" "") "https://op.example" "" [] [] _ World.s1 inFlight earlier_ok gen_s1
    (by decide) (by decide) ⟨by decide, by decide⟩ (by rfl) "https://op.example" (by rfl) (by decide) inFlight_named
    (fun c hc => ⟨rfl, by
      have h1 : (Dict.get? inFlight.issuer2rp "https://op.example").map
          (fun c => Dict.get? (confObj c.ctx.config "request_args") "nonce") = some none := by rfl
      rw [hc] at h1
      injection h1⟩)
    (fun c hc hd => by
      have h1 : (Dict.get? inFlight.issuer2rp "https://op.example").map
          (fun c => Dict.has c.ctx.addOn "dpop") = some false := by rfl
      rw [hc] at h1
      injection h1 with h1
      exact absurd (hd.symm.trans h1) (by decide))
    earlier_fresh mixed mixed_interleaved, by rfl, by rfl⟩

/-! ## What can be seen of others -/

/-- The small world with another scope. -/
def scopeWorld : Handler :=
  { World.handler with configs := [("", { World.conf with
      config := Dict.set World.conf.config "behaviour"
        (.obj [("scope", .list [.str "profile"]), ("response_types", .list [.str "code"])]) })] }

/-- A session for which the caller gives the scope. -/
def ownBegin : Py Handler (String × String) :=
  begin_ (World.ext 1000 World.s1 "n1" "") "https://op.example" "" [("scope", .list [.str "openid"])] []

/-- Another session is started, without a scope, and then the own one is finalized and its tokens are renewed. -/
def seen : Marked :=
  [(false, World.ext 1002 World.s2 "n2" "", .begin "https://op.example" "" [] []),
   (true, World.ext 1003 "" "" "n1", .finalize "https://op.example" [("code", .str "code1"), ("state", .str World.s1)] []),
   (true, World.ext 1004 "" "" "n1", .refresh World.s1 "")]

/-- **C95**, what it needs: the scope of the client is changed by a `begin` that names none, for all sessions; the refresh
request of a session that was in flight asks for another scope than it would have alone. -/
theorem C95_scope_interferes :
    (ownBegin scopeWorld).1.isOk = true ∧
    ((observe "https://op.example" seen (ownBegin scopeWorld).2).map (fun p => p.2.map (·.body))).getLast? =
      some [some (.text "grant_type=refresh_token&refresh_token=RT1&scope=profile+openid")] ∧
    ((observe "https://op.example" (seen.filter (·.1)) (ownBegin scopeWorld).2).map (fun p => p.2.map (·.body))).getLast? =
      some [some (.text "grant_type=refresh_token&refresh_token=RT1&scope=profile")] := by
  refine ⟨by decide +kernel, by decide +kernel, by decide +kernel⟩

end Verif.Props
