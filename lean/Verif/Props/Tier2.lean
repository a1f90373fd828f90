import Verif.Model.Tier2
import Verif.Props.Isolation
/-!
# C111 and C112: the single steps of `begin`, called for a session
-/

namespace Verif.Spec.Tier2
open Verif Verif.Service Verif.Handler Verif.Spec.InFlight

/-- Steps that may be taken while session `k` is in flight (see `CallOk`): a new authorization draws another value. -/
def StepOk (K : String → Prop) (k : String) : Ext × Step → Prop
  | (x, .call c) => CallOk K k (x, c)
  | (x, .authorization _ _ _) => K (x.rnd "init_state") ∧ x.rnd "init_state" ≠ k
  | _ => True

/-- The step changes what is known about session `k`.  Fetching metadata, registering and starting another login do
not, even if they are asked for by naming `k`. -/
def StepConcerns (k : String) : Ext × Step → Prop
  | (x, .call c) => Concerns k (x, c)
  | _ => False

/-- No `begin` among the steps sets up the provider kept as `i` anew (see `NotReplaced`). -/
def StepsKeep (i : String) : List (Ext × Step) → Handler → Prop
  | [], _ => True
  | xs :: l, h => (∀ c, xs.2 = .call c → NotReplaced i h (xs.1, c)) ∧ StepsKeep i l (execStep xs.1 xs.2 h).2

end Verif.Spec.Tier2

namespace Verif.Props
open Verif Verif.Service Verif.Handler Verif.StateInterface Verif.Spec.InFlight Verif.Spec.Tier2
open Verif.Spec.Store (KeySpace)

/-- A session is resolved to a client that is kept, under a name that is not empty. -/
theorem resolved_client {h : Handler} {s i : String} (hr : sessionIssuer h s = .ok i) :
    i ≠ "" ∧ ∃ c, Dict.get? h.issuer2rp i = some c := by
  unfold sessionIssuer at hr
  cases hf : state2issuer h s with
  | error e => rw [hf] at hr; cases hr
  | ok o =>
    rw [hf] at hr
    cases o with
    | none => cases hr
    | some v =>
      cases v with
      | str j =>
        simp only at hr
        split at hr
        · next hh =>
          injection hr with hr
          subst hr
          constructor
          · intro e
            subst e
            have : ∀ l : Dict Client, findIssuer s l ≠ .ok (some (.str "")) := by
              intro l
              induction l with
              | nil => intro e; cases e
              | cons p l ih =>
                obtain ⟨n, c⟩ := p
                simp only [findIssuer]
                cases hg : getIss c.db s with
                | error e => cases e <;> first | exact ih | (intro e; cases e)
                | ok v =>
                  simp only
                  split
                  · next ht => intro e; injection e with e; injection e with e; subst e; simp [Val.truthy] at ht
                  · exact ih
            exact this _ hf
          · rw [Dict.has_eq] at hh
            exact Option.isSome_iff_exists.1 hh
        · cases hr
      | _ => cases hr

/-- **C111**, a new login.  `init_authorization` for session `s` is `begin` at the issuer `s` is resolved to: the same
URL and state, or the same failure, and the same handler afterwards. -/
theorem C111_is_begin (x : Ext) (s i : String) (req b : Obj) (h : Handler) (hs : s ≠ "") (hr : sessionIssuer h s = .ok i) :
    authorizationOf x s req b h = begin_ x i "" req b h := by
  obtain ⟨hne, c, hc⟩ := resolved_client hr
  unfold authorizationOf begin_
  rw [if_neg hs]
  have hset : clientSetup x i "" b h = (.ok i, h) := by
    unfold clientSetup
    rw [if_neg (by simp [hne]), if_neg hne]
    rw [Py.read_bind_run, if_pos (by rw [Dict.has_eq, hc]; rfl)]
    rfl
  rw [Py.bind_ok hset]
  unfold onSession
  rw [hr]

/-! ### Histories -/

variable {K : String → Prop} {k : String} {w : Where} {h : Handler}

theorem inv_noStore {α : Type} (hi : Inv K k w h) {j : String} {m : Py Client α} (hm : Frame NoStore m) :
    Inv K k w (onClient j m h).2 :=
  inv_onClient hi fun c _ hkn => by
    rw [(hm c).db]
    exact ⟨hkn, SameStart.refl _ _, (hm c).conf⟩

theorem inv_noStore_session {α : Type} (hi : Inv K k w h) {s : String} {m : Py Client α} (hm : Frame NoStore m) :
    Inv K k w (onSession s m h).2 := by
  unfold onSession
  cases hr : sessionIssuer h s with
  | error e => exact hi
  | ok i => exact inv_noStore hi hm

theorem record_noStore_session {α : Type} {i s : String} {m : Py Client α} (hm : Frame NoStore m) :
    SameRecord i k h (onSession s m h).2 := by
  unfold onSession
  cases hr : sessionIssuer h s with
  | error e => exact .refl _ _ _
  | ok j => exact record_onClient fun c _ => by rw [(hm c).db]

/-- Registration for a session: an entry of `hash2issuer`, then what the client does. -/
theorem registrationOf_cases (x : Ext) (s issId : String) (b : Obj) (h : Handler) :
    (registrationOf x s issId b h).2 = h ∨
    ∃ d, (registrationOf x s issId b h).2 = (onSession s (register x b) { h with hash2issuer := d }).2 := by
  unfold registrationOf
  split
  · exact Or.inl rfl
  · rw [Py.read_bind_run]
    cases hc : getClientFromSessionKey h s with
    | error e => rw [Py.lift_bind_error rfl]; exact Or.inl rfl
    | ok c => rw [Py.lift_bind_ok rfl, Py.modify_bind_run]; exact Or.inr ⟨_, rfl⟩

theorem inv_step (hK : KeySpace K) (hk : K k) (hi : Inv K k w h) (xs : Ext × Step) (hc : StepOk K k xs)
    (hrep : ∀ i p q, w = some (i, p, q) → ∀ c, xs.2 = .call c → NotReplaced i h (xs.1, c)) :
    Inv K k w (execStep xs.1 xs.2 h).2 := by
  obtain ⟨x, st⟩ := xs
  cases st with
  | call c => exact inv_exec hK hk hi (x, c) hc (fun i p q hw => hrep i p q hw c rfl)
  | providerInfo s =>
    show Inv K k w (providerInfoOf x s h).2
    unfold providerInfoOf
    split
    · exact hi
    · exact inv_noStore_session hi (noStore_providerInfo x)
  | registration s i b =>
    show Inv K k w (registrationOf x s i b h).2
    rcases registrationOf_cases x s i b h with e | ⟨d, e⟩ <;> rw [e]
    · exact hi
    · exact inv_noStore_session (hi.same (h' := { h with hash2issuer := d }) ⟨hi.plain.configs, hi.plain.clients⟩ rfl) (noStore_register x b)
  | authorization s r b =>
    show Inv K k w (authorizationOf x s r b h).2
    by_cases hs : s = ""
    · unfold authorizationOf; rw [if_pos hs]; exact hi
    · cases hr : sessionIssuer h s with
      | error e => unfold authorizationOf; rw [if_neg hs]; unfold onSession; rw [hr]; exact hi
      | ok i =>
        rw [C111_is_begin x s i r b h hs hr]
        refine inv_exec hK hk hi (x, .begin i "" r b) hc (fun j p q hw => fun hcs => ?_)
        obtain ⟨hne, c, hcl⟩ := resolved_client hr
        unfold clientSetup at hcs
        rw [if_neg (by simp [hne]), if_neg hne, Py.read_bind_run, if_pos (by rw [Dict.has_eq, hcl]; rfl)] at hcs
        injection hcs

theorem record_step (hK : KeySpace K) (hk : K k) (hi : Inv K k w h) {i : String} (xs : Ext × Step) (hc : StepOk K k xs)
    (hno : ¬ StepConcerns k xs) (hrep : ∀ c, xs.2 = .call c → NotReplaced i h (xs.1, c))
    (hhas : Dict.has h.issuer2rp i = true) (hw : ∀ j p q, w = some (j, p, q) → j = i) :
    SameRecord i k h (execStep xs.1 xs.2 h).2 := by
  obtain ⟨x, st⟩ := xs
  cases st with
  | call c => exact record_exec hK hk hi (x, c) hc hno (hrep c rfl) hhas hw
  | providerInfo s =>
    show SameRecord i k h (providerInfoOf x s h).2
    unfold providerInfoOf
    split
    · exact .refl _ _ _
    · exact record_noStore_session (noStore_providerInfo x)
  | registration s j b =>
    show SameRecord i k h (registrationOf x s j b h).2
    rcases registrationOf_cases x s j b h with e | ⟨d, e⟩ <;> rw [e]
    · exact .refl _ _ _
    · exact record_noStore_session (h := { h with hash2issuer := d }) (noStore_register x b)
  | authorization s r b =>
    show SameRecord i k h (authorizationOf x s r b h).2
    unfold authorizationOf
    split
    · exact .refl _ _ _
    · unfold onSession
      cases hr : sessionIssuer h s with
      | error e => exact .refl _ _ _
      | ok j =>
        refine record_onClient fun c hcl => ?_
        have hb := begins_init x r b (hK.nonempty _ hc.1) c (hi.plain.clients j c (Dict.get?_eq_some_mem hcl))
        exact elsewhere_starts hK hk hc.1 hc.2 hb.db

theorem inv_steps (hK : KeySpace K) (hk : K k) : ∀ (l : List (Ext × Step)) {h : Handler}, Inv K k w h →
    (∀ xs ∈ l, StepOk K k xs) → (∀ i p q, w = some (i, p, q) → StepsKeep i l h) → Inv K k w (runSteps l h) := by
  intro l
  induction l with
  | nil => intro h hi _ _; exact hi
  | cons xs l ih =>
    intro h hi hc hrep
    have h1 := inv_step hK hk hi xs (hc xs (by simp)) (fun i p q hw => (hrep i p q hw).1)
    exact ih h1 (fun y hy => hc y (by simp [hy])) (fun i p q hw => (hrep i p q hw).2)

theorem record_steps (hK : KeySpace K) (hk : K k) {i : String} {p q : Except Exc Obj} : ∀ (l : List (Ext × Step)) {h : Handler},
    Inv K k (some (i, p, q)) h → (∀ xs ∈ l, StepOk K k xs) → (∀ xs ∈ l, ¬ StepConcerns k xs) → StepsKeep i l h →
    SameRecord i k h (runSteps l h) := by
  intro l
  induction l with
  | nil => intro h _ _ _ _; exact .refl _ _ _
  | cons xs l ih =>
    intro h hi hc hno hrep
    have hw : ∀ j p' q', (some (i, p, q) : Where) = some (j, p', q') → j = i := by
      intro j p' q' he; injection he with he; injection he with he _; exact he.symm
    have hhas : Dict.has h.issuer2rp i = true := by
      obtain ⟨db, hd, _⟩ := hi.here i p q rfl
      rw [get?_stores] at hd
      rw [Dict.has_eq]
      cases h3 : Dict.get? h.issuer2rp i with
      | none => rw [h3] at hd; cases hd
      | some c => rfl
    have h1 := inv_step hK hk hi xs (hc xs (by simp)) (fun j p' q' he => by
      have := hw j p' q' he; subst this; exact hrep.1)
    have h2 := record_step hK hk hi xs (hc xs (by simp)) (hno xs (by simp)) hrep.1 hhas hw
    exact h2.trans (ih h1 (fun y hy => hc y (by simp [hy])) (fun y hy => hno y (by simp [hy])) hrep.2)

theorem info_of_inv {i : String} {p q : Except Exc Obj} {h : Handler} {db : DB} (hne : i ≠ "")
    (hi : Inv K k (some (i, p, q)) h) (hd : Dict.get? (stores h) i = some db) : sessionInformation h k = getState db k := by
  rw [get?_stores] at hd
  cases hc : Dict.get? h.issuer2rp i with
  | none => rw [hc] at hd; cases hd
  | some c =>
    rw [hc] at hd
    injection hd with hd
    subst hd
    unfold sessionInformation getClientFromSessionKey
    rw [inv_resolves hi hne]
    simp only [Dict.getItem_eq_ok.2 hc]

/-- **C111**, a session among single steps.  A handler is made; any steps are taken (`before`: calls of the interface and
single steps for sessions); `begin` returns `k` for the client kept as `i`; any steps are taken (`after`).  Then `k` is
resolved to `i`; and if now steps are taken that do not concern `k` (`others`: calls for other sessions, and single
steps for any session, `k` too, with any answers and failures), it is so still, and the session information of `k` is
what it was.  In particular neither `do_provider_info` nor `do_client_registration` nor `init_authorization` for `k`
changes the session. -/
theorem C111_session_kept {K : String → Prop} (hK : KeySpace K) (h0 : Handler) (hnew : NewHandler h0)
    (before : List (Ext × Step)) (x : Ext) (issuer user : String) (req b : Obj) (url k : String) (h1 : Handler)
    (hbefore : ∀ xs ∈ before, StepOk K k xs) (hkx : K (x.rnd "init_state"))
    (hbegin : begin_ x issuer user req b (runSteps before h0) = (.ok (url, k), h1))
    (i : String) (hsetup : (clientSetup x issuer user b (runSteps before h0)).1 = .ok i) (hne : i ≠ "")
    (hname : NamedAfterIssuer h1 i)
    (after : List (Ext × Step)) (hafter : ∀ xs ∈ after, StepOk K k xs) (hkeep : StepsKeep i after h1)
    (others : List (Ext × Step)) (hothers : ∀ xs ∈ others, StepOk K k xs) (hno : ∀ xs ∈ others, ¬ StepConcerns k xs)
    (hkeep' : StepsKeep i others (runSteps after h1)) :
    sessionIssuer (runSteps after h1) k = .ok i ∧ sessionIssuer (runSteps others (runSteps after h1)) k = .ok i ∧
    ∃ st, sessionInformation (runSteps after h1) k = .ok st ∧ sessionInformation (runSteps others (runSteps after h1)) k = .ok st := by
  have hk : K k := by
    obtain ⟨_, _, _, _, _, b3, _⟩ := begin_ok hbegin
    exact init_key b3 ▸ hkx
  have hi0 : Inv K k none (runSteps before h0) :=
    inv_steps hK hk before (inv_new hnew.empty hnew.plain) hbefore (fun _ _ _ hw => by cases hw)
  obtain ⟨c, c', a1, a2, a3, a4, a5⟩ := inv_begun hK hkx hi0 hbegin hsetup hne hname
  have keep : ∀ {l : List (Ext × Step)} {g : Handler}, StepsKeep i l g → ∀ i' p q,
      (some (i, getItem c'.db "auth_request" k, getItem c'.db "pkce" k) : Where) = some (i', p, q) → StepsKeep i' l g := by
    intro l g hkp i' p q hw
    injection hw with hw
    injection hw with hw _
    subst hw
    exact hkp
  have hi2 := inv_steps hK hk after a5 hafter (keep hkeep)
  have hi3 := inv_steps hK hk others hi2 hothers (keep hkeep')
  have hrec := record_steps hK hk others hi2 hothers hno hkeep'
  obtain ⟨db, d1, d2, _⟩ := hi2.here i _ _ rfl
  obtain ⟨db', e1, e2⟩ := hrec db d1
  refine ⟨inv_resolves hi2 hne, inv_resolves hi3 hne, ?_⟩
  rw [info_of_inv hne hi2 d1, info_of_inv hne hi3 e1, e2]
  unfold getIss at d2
  cases hst : getState db k with
  | error e => rw [hst] at d2; cases d2
  | ok st => exact ⟨st, rfl, rfl⟩

/-- **C111**, a new login for a user who has one ("If the user has a previous session stored this will not overwrite that
but will create a new one").  As in `C111_session_kept`, `k` is a session at `i`; `init_authorization` for `k` returns
`k'`.  Then `k'` is another session, resolved to the same provider, and the session information of `k` is what it
was. -/
theorem C111_new_session {K : String → Prop} (hK : KeySpace K) (h0 : Handler) (hnew : NewHandler h0)
    (before : List (Ext × Step)) (x : Ext) (issuer user : String) (req b : Obj) (url k : String) (h1 : Handler)
    (hbefore : ∀ xs ∈ before, StepOk K k xs) (hkx : K (x.rnd "init_state"))
    (hbegin : begin_ x issuer user req b (runSteps before h0) = (.ok (url, k), h1))
    (i : String) (hsetup : (clientSetup x issuer user b (runSteps before h0)).1 = .ok i) (hne : i ≠ "")
    (hname : NamedAfterIssuer h1 i)
    (after : List (Ext × Step)) (hafter : ∀ xs ∈ after, StepOk K k xs) (hkeep : StepsKeep i after h1)
    (y : Ext) (req' b' : Obj) (url' k' : String) (h2 : Handler)
    (hnone : ∀ xs ∈ before ++ [(x, .call (.begin issuer user req b))] ++ after, StepOk K k' xs)
    (hky : K (y.rnd "init_state")) (hother : y.rnd "init_state" ≠ k)
    (hagain : authorizationOf y k req' b' (runSteps after h1) = (.ok (url', k'), h2)) (hname' : NamedAfterIssuer h2 i) :
    k' ≠ k ∧ k' = y.rnd "init_state" ∧ sessionIssuer h2 k' = .ok i ∧ sessionIssuer h2 k = .ok i ∧
    ∃ st, sessionInformation (runSteps after h1) k = .ok st ∧ sessionInformation h2 k = .ok st := by
  have hk : K k := by
    obtain ⟨_, _, _, _, _, b3, _⟩ := begin_ok hbegin
    exact init_key b3 ▸ hkx
  obtain ⟨r1, r2, st, s1, s2⟩ := C111_session_kept hK h0 hnew before x issuer user req b url k h1 hbefore hkx hbegin i hsetup hne hname
    after hafter hkeep [(y, .authorization k req' b')] (by intro xs hm; simp at hm; subst hm; exact ⟨hky, hother⟩)
    (by intro xs hm; simp at hm; subst hm; exact id) ⟨(fun c e => by cases e), trivial⟩
  have hrun : runSteps [(y, .authorization k req' b')] (runSteps after h1) = h2 := by
    show (authorizationOf y k req' b' (runSteps after h1)).2 = h2
    rw [hagain]
  rw [hrun] at r2 s2
  have hb := C111_is_begin y k i req' b' (runSteps after h1) (hK.nonempty k hk) r1
  rw [hagain] at hb
  have hk' : k' = y.rnd "init_state" := by
    obtain ⟨_, _, _, _, _, b3, _⟩ := begin_ok hb.symm
    exact init_key b3
  have hcs : (clientSetup y i "" b' (runSteps after h1)).1 = .ok i := by
    obtain ⟨_, c, hcl⟩ := resolved_client r1
    unfold clientSetup
    rw [if_neg (by simp [hne]), if_neg hne, Py.read_bind_run, if_pos (by rw [Dict.has_eq, hcl]; rfl)]
    rfl
  have hi : Inv K k' none (runSteps after h1) := by
    have hall := inv_steps hK (k := k') (hk' ▸ hky) (before ++ [(x, .call (.begin issuer user req b))] ++ after)
      (inv_new hnew.empty hnew.plain) hnone (fun _ _ _ hw => by cases hw)
    have happ : ∀ (l l' : List (Ext × Step)) (g : Handler), runSteps (l ++ l') g = runSteps l' (runSteps l g) := by
      intro l
      induction l with
      | nil => intro l' g; rfl
      | cons xs l ih => intro l' g; exact ih l' _
    rw [happ, happ] at hall
    have hstep : runSteps [(x, Step.call (.begin issuer user req b))] (runSteps before h0) = h1 := by
      show (begin_ x issuer user req b (runSteps before h0)).2 = h1
      rw [hbegin]
    rw [hstep] at hall
    exact hall
  obtain ⟨_, _, _, _, _, _, a5⟩ := inv_begun hK hky hi hb.symm hcs hne hname'
  exact ⟨hk' ▸ hother, hk', inv_resolves a5 hne, r2, st, s1, s2⟩

/-! ### Metadata and registration, asked for again -/

/-- A client that is put back is there as it was. -/
theorem kept_onClient {α : Type} {i : String} {m : Py Client α} {h : Handler} {c : Client}
    (hc : Dict.get? h.issuer2rp i = some c) : Dict.get? (onClient i m h).2.issuer2rp i = some (m c).2 := by
  unfold onClient
  rw [hc]
  simp only
  have hs : Dict.get? (Dict.set h.issuer2rp i (m c).2) i = some (m c).2 := Dict.get?_set_self _ _ _
  unfold share
  split
  · exact hs
  · split
    · simp only
      rw [Dict.get?_map, hs]
      simp only [Option.map_some, sharedClient, if_true]
    · exact hs

/-- Setting a value that is there. -/
theorem put_back {α : Type} {k : String} {v : α} : ∀ {d : Dict α}, Dict.get? d k = some v → Dict.set d k v = d
  | [], h => by cases h
  | (k', v') :: d, h => by
    rw [Dict.get?_cons] at h
    unfold Dict.set
    by_cases e : k' = k
    · rw [if_pos e] at h
      injection h with h
      simp [e, h]
    · rw [if_neg e] at h
      simp [e, put_back h]

/-- The provider's metadata names the issuer, and no keys. -/
structure Described (c : Client) (i : String) : Prop where
  issuer : Dict.get? c.ctx.providerInfo "issuer" = some (.str i)
  keys : Dict.get? c.ctx.providerInfo "keys" = none

theorem doProviderInfo_known (x : Ext) (c : Client) (hp : c.ctx.providerInfo ≠ []) :
    (doProviderInfo x c).2 = { c with ctx := { c.ctx with endpoints := setAllEndpoints c.services c.ctx.providerInfo c.ctx.endpoints, keyLoads := c.ctx.keyLoads ++ configuredKeys c.ctx.issuer c.ctx.providerInfo } } ∧
    (doProviderInfo x c).1 = (match knownKeys c.ctx.providerInfo with | .error e => .error e | .ok _ => staticIssuer c.ctx) := by
  have hemp : c.ctx.providerInfo.isEmpty = false := by
    cases h : c.ctx.providerInfo with
    | nil => exact absurd h hp
    | cons => rfl
  have hrun : doProviderInfo x c = (do Py.lift (knownKeys c.ctx.providerInfo); Py.lift (staticIssuer c.ctx) : Py Client String)
      { c with ctx := { c.ctx with endpoints := setAllEndpoints c.services c.ctx.providerInfo c.ctx.endpoints, keyLoads := c.ctx.keyLoads ++ configuredKeys c.ctx.issuer c.ctx.providerInfo } } := by
    unfold doProviderInfo
    rw [Py.read_bind_run, if_neg (by simp [hemp])]
    rfl
  rw [hrun]
  cases hk : knownKeys c.ctx.providerInfo with
  | error e => rw [Py.lift_bind_error rfl]; exact ⟨rfl, rfl⟩
  | ok u => rw [Py.lift_bind_ok rfl]; exact ⟨rfl, rfl⟩

/-- **C112**, metadata asked for again.  If session `s` is resolved to the client `c`, kept as `i`, and the client knows
its provider (as every client does that `begin` set up), `do_provider_info` for `s` sends nothing, whatever the
circumstances `x`: the provider's metadata stay what they were.  ("Will overwrite previously saved provider metadata" does
not hold.)  The client keeps its name, its secret, its registration, its settings and its sessions. -/
theorem C112_renewed_violated (x : Ext) (s i : String) (h : Handler) (c : Client) (hs : s ≠ "")
    (hr : sessionIssuer h s = .ok i) (hc : Dict.get? h.issuer2rp i = some c) (hp : c.ctx.providerInfo ≠ []) :
    ∃ c', Dict.get? (providerInfoOf x s h).2.issuer2rp i = some c' ∧ c'.log = c.log ∧ c'.db = c.db ∧
      c'.ctx.providerInfo = c.ctx.providerInfo ∧ c'.ctx.issuer = c.ctx.issuer ∧
      c'.ctx.clientId = c.ctx.clientId ∧ c'.ctx.clientSecret = c.ctx.clientSecret ∧
      c'.ctx.registrationResponse = c.ctx.registrationResponse ∧ c'.ctx.behaviour = c.ctx.behaviour ∧
      c'.ctx.callback = c.ctx.callback := by
  refine ⟨(doProviderInfo x c).2, ?_, ?_⟩
  · unfold providerInfoOf
    rw [if_neg hs]
    unfold onSession
    rw [hr]
    exact kept_onClient hc
  · rw [(doProviderInfo_known x c hp).1]
    exact ⟨rfl, rfl, rfl, rfl, rfl, rfl, rfl, rfl, rfl⟩

/-- … and if the metadata names the issuer and no keys, it is the answer, and no keys are loaded. -/
theorem C112_issuer_again_partial (x : Ext) (s i j : String) (h : Handler) (c : Client) (hs : s ≠ "")
    (hr : sessionIssuer h s = .ok i) (hc : Dict.get? h.issuer2rp i = some c) (hd : Described c j) :
    (providerInfoOf x s h).1 = .ok j ∧
    ∃ c', Dict.get? (providerInfoOf x s h).2.issuer2rp i = some c' ∧ c'.ctx.keyLoads = c.ctx.keyLoads := by
  have hp : c.ctx.providerInfo ≠ [] := by
    intro e
    have := hd.issuer
    rw [e] at this
    cases this
  have hk : Dict.get? c.ctx.providerInfo "keys" = none := hd.keys
  have hrun : providerInfoOf x s h = onClient i (doProviderInfo x) h := by
    unfold providerInfoOf
    rw [if_neg hs]
    unfold onSession
    rw [hr]
  rw [hrun]
  constructor
  · unfold onClient
    rw [hc]
    simp only
    rw [(doProviderInfo_known x c hp).2]
    unfold knownKeys
    rw [hk]
    simp only
    unfold staticIssuer
    rw [hd.issuer]
    rfl
  · refine ⟨_, kept_onClient hc, ?_⟩
    rw [(doProviderInfo_known x c hp).1]
    have : configuredKeys c.ctx.issuer c.ctx.providerInfo = [] := by
      unfold configuredKeys confObj
      rw [hk]
      rfl
    simp [this]

/-- **C112**, registration asked for again.  If the client has a name, `do_client_registration` for one of its sessions
succeeds and sends nothing; the client is as it was, all sessions are, and the handler notes the issuer under the name it
is given. -/
theorem C112_registered_once (x : Ext) (s i issId : String) (b : Obj) (h : Handler) (c : Client) (hs : s ≠ "")
    (hr : sessionIssuer h s = .ok i) (hc : Dict.get? h.issuer2rp i = some c) (hid : c.ctx.clientId ≠ "") :
    (registrationOf x s issId b h).1 = .ok () ∧
    Dict.get? (registrationOf x s issId b h).2.issuer2rp i = some c ∧
    stores (registrationOf x s issId b h).2 = stores h ∧
    (registrationOf x s issId b h).2.hash2issuer = Dict.set h.hash2issuer issId c.ctx.issuer := by
  have hg : getClientFromSessionKey h s = .ok c := by
    unfold getClientFromSessionKey
    rw [hr]
    exact Dict.getItem_eq_ok.2 hc
  have hreg : register x b c = (.ok (), c) := by
    unfold register
    rw [Py.read_bind_run, if_neg hid]
    rfl
  have hrun : registrationOf x s issId b h =
      onClient i (register x b) { h with hash2issuer := Dict.set h.hash2issuer issId c.ctx.issuer } := by
    unfold registrationOf
    rw [if_neg hs, Py.read_bind_run, hg, Py.lift_bind_ok rfl, Py.modify_bind_run]
    unfold onSession
    rw [show sessionIssuer { h with hash2issuer := Dict.set h.hash2issuer issId c.ctx.issuer } s = sessionIssuer h s from rfl, hr]
  rw [hrun]
  have hc' : Dict.get? ({ h with hash2issuer := Dict.set h.hash2issuer issId c.ctx.issuer } : Handler).issuer2rp i = some c := hc
  refine ⟨?_, ?_, ?_, ?_⟩
  · unfold onClient
    rw [hc']
    simp only
    rw [hreg]
  · rw [kept_onClient hc', hreg]
  · rw [stores_onClient hc', hreg]
    refine put_back ?_
    rw [get?_stores, hc]
    rfl
  · unfold onClient
    rw [hc']
    simp only
    unfold share
    split
    · rfl
    · split <;> rfl

/-! ### Non-vacuity -/

/-- Session `s1` is started, … -/
def tierStart : Handler := (begin_ (World.ext 1000 World.s1 "n1" "") "https://op.example" "" [] [] World.handler).2

/-- … finalized; metadata and registration are asked for again … -/
def tierAfter : List (Ext × Step) :=
  [(World.ext 1003 "" "" "n1", .call (.finalize "https://op.example" [("code", .str "code1"), ("state", .str World.s1)] [])),
   (World.ext 1004 "" "" "", .providerInfo World.s1),
   (World.ext 1005 "" "" "", .registration World.s1 "" [])]

/-- … another login is started for it, and finalized. -/
def tierOthers : List (Ext × Step) :=
  [(World.ext 1006 World.s2 "n2" "", .authorization World.s1 [("prompt", .str "login")] []),
   (World.ext 1007 "" "" "n2", .call (.finalize "https://op.example" [("code", .str "code2"), ("state", .str World.s2)] [])),
   (World.ext 1008 "" "" "", .providerInfo World.s2)]

/-- All of it succeeds. -/
example :
    (begin_ (World.ext 1000 World.s1 "n1" "") "https://op.example" "" [] [] World.handler).1.isOk = true ∧
    (execStep (World.ext 1003 "" "" "n1") (.call (.finalize "https://op.example" [("code", .str "code1"), ("state", .str World.s1)] [])) tierStart).1.isOk = true ∧
    (execStep (World.ext 1004 "" "" "") (.providerInfo World.s1) (runSteps (tierAfter.take 1) tierStart)).1.isOk = true ∧
    (execStep (World.ext 1005 "" "" "") (.registration World.s1 "" []) (runSteps (tierAfter.take 2) tierStart)).1.isOk = true ∧
    (execStep (World.ext 1006 World.s2 "n2" "") (.authorization World.s1 [("prompt", .str "login")] []) (runSteps tierAfter tierStart)).1.isOk = true ∧
    (execStep (World.ext 1008 "" "" "") (.providerInfo World.s2) (runSteps (tierOthers.take 2) (runSteps tierAfter tierStart))).1.isOk = true := by
  decide +kernel

theorem tier_named : NamedAfterIssuer tierStart "https://op.example" := by
  intro c hc
  have h : (Dict.get? tierStart.issuer2rp "https://op.example").map (fun c => c.ctx.issuer) = some "https://op.example" := by
    decide +kernel
  rw [hc] at h
  injection h

/-- `C111_session_kept` applies to these steps. -/
example : ∃ st, sessionInformation (runSteps tierAfter tierStart) World.s1 = .ok st ∧
    sessionInformation (runSteps tierOthers (runSteps tierAfter tierStart)) World.s1 = .ok st := by
  obtain ⟨url, hbegin⟩ : ∃ url, begin_ (World.ext 1000 World.s1 "n1" "") "https://op.example" "" [] [] (runSteps [] World.handler) =
      (.ok (url, World.s1), tierStart) := by
    have h : (begin_ (World.ext 1000 World.s1 "n1" "") "https://op.example" "" [] [] World.handler).1.toOption.map Prod.snd = some World.s1 := by
      decide +kernel
    have key : ∀ p : Except Exc (String × String) × Handler, p.1.toOption.map Prod.snd = some World.s1 →
        ∃ url, p = (.ok (url, World.s1), p.2) := by
      intro p hp
      obtain ⟨r, g⟩ := p
      cases r with
      | error e => cases hp
      | ok q =>
        obtain ⟨u, st⟩ := q
        have hp : some st = some World.s1 := hp
        injection hp with hp
        exact ⟨u, by rw [hp]⟩
    exact key _ h
  refine (C111_session_kept C10_generated_keys_are_safe World.handler newWorld [] (World.ext 1000 World.s1 "n1" "")
    "https://op.example" "" [] [] url World.s1 tierStart (by simp) gen_s1 hbegin "https://op.example" ?_ (by decide) tier_named
    tierAfter ?_ ?_ tierOthers ?_ ?_ ?_).2.2
  · have h : (clientSetup (World.ext 1000 World.s1 "n1" "") "https://op.example" "" [] World.handler).1.toOption = some "https://op.example" := by
      decide +kernel
    show (clientSetup (World.ext 1000 World.s1 "n1" "") "https://op.example" "" [] World.handler).1 = _
    cases hr : (clientSetup (World.ext 1000 World.s1 "n1" "") "https://op.example" "" [] World.handler).1 with
    | error e => rw [hr] at h; cases h
    | ok p => rw [hr] at h; injection h with h; rw [h]
  · intro xs hm
    simp only [tierAfter, List.mem_cons, List.not_mem_nil, or_false] at hm
    rcases hm with rfl | rfl | rfl <;> trivial
  · exact ⟨(fun c e => by injection e with e; subst e; trivial), (fun c e => by cases e), (fun c e => by cases e), trivial⟩
  · intro xs hm
    simp only [tierOthers, List.mem_cons, List.not_mem_nil, or_false] at hm
    rcases hm with rfl | rfl | rfl
    · exact ⟨gen_s2, by decide⟩
    · trivial
    · trivial
  · intro xs hm
    simp only [tierOthers, List.mem_cons, List.not_mem_nil, or_false] at hm
    rcases hm with rfl | rfl | rfl
    · exact id
    · rintro ⟨c, resp, c', hp, hs⟩
      rw [world_parse] at hp
      injection hp with hp _
      injection hp with hp
      injection hp with hp
      subst hp
      revert hs
      decide
    · exact id
  · exact ⟨(fun c e => by cases e), (fun c e => by injection e with e; subst e; trivial), (fun c e => by cases e), trivial⟩

/-! ### Violations -/

/-- **C112** fails for keys.  Metadata that were fetched from a provider are taken for configured ones when
`do_provider_info` is called again: if the document names a local file under `keys`, the file is read, and its keys are
taken for the provider's.  (Before, no keys were loaded from it.) -/
theorem C112_provider_names_files_violated :
    let x : Ext := { World.ext 1000 World.s1 "n1" "" with
      deser := fun _ _ _ i => match i with
        | .text "metadata" => .ok (World.metadata ++ [("keys", .obj [("file", .obj [("jwks", .str "/etc/keys.json")])])])
        | i => World.parse i }
    let h := (begin_ x "https://op.example" "" [] [] World.handler).2
    (Dict.get? h.issuer2rp "https://op.example").map
      (fun c => decide (("https://op.example", "file", Val.str "/etc/keys.json") ∈ c.ctx.keyLoads)) = some false ∧
    (providerInfoOf x World.s1 h).1.toOption = some "https://op.example" ∧
    (Dict.get? (providerInfoOf x World.s1 h).2.issuer2rp "https://op.example").map
      (fun c => decide (("https://op.example", "file", Val.str "/etc/keys.json") ∈ c.ctx.keyLoads)) = some true := by
  decide +kernel

/-- **C112**: with no client and an empty session value nothing is done.  (The documented usage
`init_authorization(state_key, …)`, doc/source/rp_handler.rst:194-195, passes the session value as the client, which it is
not; `state=` has to be written.) -/
theorem C112_nothing_named (x : Ext) (req b : Obj) (h : Handler) :
    authorizationOf x "" req b h = (.error .valueError, h) ∧ providerInfoOf x "" h = (.error .valueError, h) :=
  ⟨rfl, rfl⟩

end Verif.Props
