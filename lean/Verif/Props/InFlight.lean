import Verif.Lemmas.Named
import Verif.Lemmas.World
/-!
# C11 and C12: sessions in flight

`K` is a space of session values (`KeySpace`, e.g. what `rndstr(32)` makes, `C10_generated_keys_are_safe`).
-/

namespace Verif.Props
open Verif Verif.Service Verif.Handler Verif.StateInterface Verif.Spec.InFlight
open Verif.Spec.Store (KeySpace)

/-- A handler as it is constructed: no clients yet. -/
structure NewHandler (h : Handler) : Prop where
  empty : h.issuer2rp = []
  plain : PlainHandler h

/-- In handler `h` the client kept as `i` works for an issuer of that name. -/
def NamedAfterIssuer (h : Handler) (i : String) : Prop :=
  ∀ c, Dict.get? h.issuer2rp i = some c → c.ctx.issuer = i

/-- What `begin` did when it succeeded. -/
theorem begin_ok {x : Ext} {issId user : String} {req b : Obj} {h h1 : Handler} {url k : String}
    (hb : begin_ x issId user req b h = (.ok (url, k), h1)) :
    ∃ i g c, clientSetup x issId user b h = (.ok i, g) ∧ Dict.get? g.issuer2rp i = some c ∧
      (initAuthorization x req b c).1 = .ok (url, k) ∧ (onClient i (initAuthorization x req b) g).2 = h1 := by
  unfold begin_ at hb
  obtain ⟨i, g, h2, h3⟩ := Py.bind_eq_ok.1 hb
  cases hc : Dict.get? g.issuer2rp i with
  | none =>
    unfold onClient at h3
    rw [hc] at h3
    have := congrArg Prod.fst h3
    cases this
  | some c =>
    refine ⟨i, g, c, h2, hc, ?_, congrArg Prod.snd h3⟩
    have h4 := congrArg Prod.fst h3
    unfold onClient at h4
    rw [hc] at h4
    exact h4

/-- The session value is the random one. -/
theorem init_key {x : Ext} {req b : Obj} {c : Client} {url k : String}
    (h : (initAuthorization x req b c).1 = .ok (url, k)) : k = x.rnd "init_state" := by
  have h' : initAuthorization x req b c = (.ok (url, k), (initAuthorization x req b c).2) := Prod.ext h rfl
  generalize (initAuthorization x req b c).2 = c' at h'
  unfold initAuthorization at h'
  obtain ⟨args, c0, _, h2⟩ := Py.bind_eq_ok.1 h'
  rw [Py.read_bind_run] at h2
  obtain ⟨k1, c1, h3, h4⟩ := Py.bind_eq_ok.1 h2
  obtain ⟨_, c2, _, h6⟩ := Py.bind_eq_ok.1 h4
  have hk1 : k1 = x.rnd "init_state" := by
    have h3 : (createState c0.ctx.issuer "" (x.rnd "init_state") c0.db).1 = .ok k1 := congrArg Prod.fst h3
    rw [createState_random] at h3
    injection h3 with h3
    exact h3.symm
  split at h6
  · have := congrArg Prod.fst h6; cases this
  · obtain ⟨_, c3, _, h7⟩ := Py.bind_eq_ok.1 h6
    obtain ⟨info, c4, _, h8⟩ := Py.bind_eq_ok.1 h7
    have h9 := congrArg Prod.fst h8
    injection h9 with h9
    injection h9 with _ h9
    rw [← h9]; exact hk1

/-- A client with another `behaviour`. -/
def reBehaviour (bh : Obj) (c : Client) : Client := { c with ctx := { c.ctx with behaviour := bh } }

/-- The client after `onClient`, apart from what is shared with its configuration. -/
theorem onClient_client {α : Type} {i : String} {m : Py Client α} {g : Handler} {c : Client}
    (hc : Dict.get? g.issuer2rp i = some c) :
    ∃ bh, Dict.get? (onClient i m g).2.issuer2rp i =
      some (reBehaviour bh (m c).2) := by
  have hs : Dict.get? (Dict.set g.issuer2rp i (m c).2) i = some (m c).2 := Dict.get?_set_self _ _ _
  unfold onClient
  rw [hc]
  simp only
  unfold share
  split
  · exact ⟨(m c).2.ctx.behaviour, hs⟩
  · split
    · simp only
      rw [Dict.get?_map, hs]
      simp only [Option.map_some, sharedClient, if_true]
      exact ⟨_, rfl⟩
    · exact ⟨(m c).2.ctx.behaviour, hs⟩

/-- Starting a session keeps the known sessions within `K`. -/
theorem known_starts {K N : String → Prop} {k : String} (hk : K k) {db db' : DB} (ha : Acts (Starts N k) db db')
    (hd : Known K db) : Known K db' := by
  refine ha.invariant (I := Known K) (fun op d hop hd => ?_) hd
  cases op with
  | create iss key rnd =>
    rw [Kept.step_snd_create]
    have hop : (if key = "" then rnd else key) = k := hop
    rcases Kept.createState_cases iss key rnd d with h | h <;> rw [h]
    · exact hd
    · intro κ v hκ
      by_cases e : κ = if key = "" then rnd else key
      · rw [e, hop]; exact hk
      · unfold getIss at hκ
        rw [getState_set_ne _ _ e] at hκ
        exact hd κ v hκ
  | store item t k' =>
    rw [Kept.step_snd_store]
    intro κ v h
    rw [Kept.getIss_storeItem hop.2.1] at h
    exact hd κ v h
  | bind x v k' => rw [Kept.step_snd_bind]; exact Kept.known_bind hd x v k'
  | _ => exact hop.elim

/-- After a successful `begin` the invariant holds with the session at its client. -/
theorem inv_begun {K : String → Prop} (hK : KeySpace K) {x : Ext} {issId user : String} {req b : Obj} {h h1 : Handler}
    {url k : String} (hkx : K (x.rnd "init_state")) (hi : Inv K k none h) (hb : begin_ x issId user req b h = (.ok (url, k), h1)) {i : String}
    (hcs : (clientSetup x issId user b h).1 = .ok i) (hne : i ≠ "") (hname : NamedAfterIssuer h1 i) :
    ∃ c c', initAuthorization x req b c = (.ok (url, k), c') ∧ k = x.rnd "init_state" ∧ PlainConf c.conf ∧
      (∃ bh, Dict.get? h1.issuer2rp i = some (reBehaviour bh c')) ∧
      Inv K k (some (i, getItem c'.db "auth_request" k, getItem c'.db "pkce" k)) h1 := by
  obtain ⟨j, g, c, b1, b2, b3, b4⟩ := begin_ok hb
  rw [b1] at hcs
  injection hcs with hcs
  subst hcs
  have hg : Inv K k none g := by
    have := inv_setup hi x issId user b (fun _ _ _ hw => by cases hw)
    rw [b1] at this
    exact this
  have hpc := hg.plain.clients j c (Dict.get?_eq_some_mem b2)
  have hrun : initAuthorization x req b c = (.ok (url, k), (initAuthorization x req b c).2) := Prod.ext b3 rfl
  generalize (initAuthorization x req b c).2 = c' at hrun
  obtain ⟨t⟩ := authTrace hK hkx hpc hrun
  have hk : K k := t.hk ▸ hkx
  obtain ⟨bh, o1⟩ := onClient_client (m := initAuthorization x req b) b2
  rw [hrun] at o1
  have hiss : c.ctx.issuer = j := by
    have h5 : c'.ctx.issuer = j := hname (reBehaviour bh c') (by rw [← b4]; exact o1)
    rw [t.hctx, (aliasScope_same req c.ctx).1] at h5
    exact h5
  refine ⟨c, c', hrun, t.hk, hpc, ⟨bh, by rw [← b4]; exact o1⟩, ?_⟩
  have hbeg := begins_init x req b (hK.nonempty _ hkx) c hpc
  rw [hrun, ← t.hk] at hbeg
  have hst : stores h1 = Dict.set (stores g) j c'.db := by
    rw [← b4, stores_onClient b2, hrun]
  have hdbg : Dict.get? (stores g) j = some c.db := by rw [get?_stores, b2]; rfl
  refine ⟨?_, ?_, ?_, ?_, ?_⟩
  · rw [hst]; exact Dict.nodup_set hg.nodup _ _
  · rw [← b4]
    refine plain_onClient hg.plain fun d hd => ?_
    rw [b2] at hd
    injection hd with hd
    subst hd
    rw [hrun]
    exact t.hconf
  · intro j' db hdb
    rw [hst, Dict.get?_set] at hdb
    split at hdb
    · injection hdb with hdb
      subst hdb
      exact known_starts hk hbeg.db (hg.known j _ hdbg)
    · exact hg.known j' db hdb
  · intro i p q hw
    injection hw with hw
    injection hw with hw1 hw2
    injection hw2 with hw2 hw3
    subst hw1; subst hw2; subst hw3
    refine ⟨c'.db, (by rw [hst, Dict.get?_set_self]), getIss_of t.hrecord ?_, rfl, rfl⟩
    rw [Dict.get?_set_ne _ _ (by decide)]
    have hf : Dict.get? (freshRecord c.ctx.issuer) "iss" = some (.str j) := by
      rw [hiss]
      exact Msg.get?_ofDict_some (by simp [Dict.get?]) (by
        rw [← Bool.not_eq_true, Msg.emptyVal_iff]
        simp [hne])
    split
    · rw [Dict.get?_set_ne _ _ (by decide)]; exact hf
    · exact hf
  · intro j' db hdb hne
    have hj : j' ≠ j := hne _ _ _ rfl
    rw [hst, Dict.get?_set_ne _ _ (Ne.symm hj)] at hdb
    exact hg.away j' db hdb (fun _ _ _ hw => by cases hw)

/-- **C11**, what holds.  A handler is made; any calls are made (`before`); `begin` returns `k`, having set
up (or found) the client kept as `i`; any calls are made (`after`), for this and for other sessions and
providers, with any answers and failures, in which `k` is not cleared and the client kept as `i` is not
replaced by another one.  Then `k` is resolved to `i` and to the client kept as `i`.
Missing: the two assumptions on `i`, see `C11_misnamed_violated` and `C12_begin_violated`. -/
theorem C11_session_resolves_partial {K : String → Prop} (hK : KeySpace K) (h0 : Handler) (hnew : NewHandler h0)
    (before : List (Ext × Call)) (x : Ext) (issuer user : String) (req b : Obj) (url k : String) (h1 : Handler)
    (hbefore : ∀ xc ∈ before, CallOk K k xc) (hkx : K (x.rnd "init_state"))
    (hbegin : begin_ x issuer user req b (run before h0) = (.ok (url, k), h1))
    (i : String) (hsetup : (clientSetup x issuer user b (run before h0)).1 = .ok i) (hne : i ≠ "")
    (hname : NamedAfterIssuer h1 i)
    (after : List (Ext × Call)) (hafter : ∀ xc ∈ after, CallOk K k xc) (hkeep : NeverReplaced i after h1) :
    sessionIssuer (run after h1) k = .ok i ∧
    (state2issuer (run after h1) k = .ok (some (.str i))) ∧
    ∃ c, Dict.get? (run after h1).issuer2rp i = some c ∧ getClientFromSessionKey (run after h1) k = .ok c := by
  have hk : K k := by
    obtain ⟨_, _, _, _, _, b3, _⟩ := begin_ok hbegin
    exact init_key b3 ▸ hkx
  have hi0 : Inv K k none (run before h0) :=
    inv_run hK hk before (inv_new hnew.empty hnew.plain) hbefore (fun _ _ _ hw => by cases hw)
  obtain ⟨c, c', a1, a2, a3, a4, a5⟩ := inv_begun hK hkx hi0 hbegin hsetup hne hname
  have hi2 := inv_run hK hk after a5 hafter (fun i' p q hw => by
    injection hw with hw
    injection hw with hw _
    subst hw
    exact hkeep)
  have hr := inv_resolves hi2 hne
  refine ⟨hr, ?_, ?_⟩
  · unfold sessionIssuer at hr
    split at hr
    · cases hr
    · next j hj =>
      split at hr
      · injection hr with hr; subst hr; exact hj
      · cases hr
    · cases hr
  · obtain ⟨db, d1, _⟩ := hi2.here i _ _ rfl
    rw [get?_stores] at d1
    cases hc : Dict.get? (run after h1).issuer2rp i with
    | none => rw [hc] at d1; cases d1
    | some c => exact ⟨c, rfl, by unfold getClientFromSessionKey; rw [hr]; exact Dict.getItem_eq_ok.2 hc⟩

/-- If every configuration gives its provider one name, `begin` ends at a client that is kept under the
name of the issuer it works for. -/
theorem begun_named {K : String → Prop} (hK : KeySpace K) {x : Ext} {issuer user : String} {req b : Obj} {h h1 : Handler}
    {r : Except Exc (String × String)} (hkx : K (x.rnd "init_state")) (hp : PlainHandler h) (hn : Handler.Named h)
    (hb : begin_ x issuer user req b h = (r, h1)) (i : String) : NamedAfterIssuer h1 i := by
  intro c hc
  have h2 : (exec x (.begin issuer user req b) h).2 = h1 := congrArg Prod.snd hb
  -- the session value does not matter here
  have := named_exec (k := x.rnd "init_state" ++ "x") hK hn hp (x, .begin issuer user req b) ⟨hkx, by
    intro e
    have := congrArg String.length e
    rw [String.length_append] at this
    have hx : "x".length = 1 := rfl
    omega⟩
  have h3 : Handler.Named h1 := h2 ▸ this
  exact h3.clients i c (Dict.get?_eq_some_mem hc)

/-- **C11** for handlers whose configurations give every provider one name (`OneName`): a session that was
started is resolved to the issuer and the client kept for it, after any calls (see
`C11_session_resolves_partial`), as long as `k` is not cleared and the client is not replaced. -/
theorem C11_one_name {K : String → Prop} (hK : KeySpace K) (h0 : Handler) (hnew : NewHandler h0)
    (hone : ∀ n cc, (n, cc) ∈ h0.configs → OneName n cc)
    (before : List (Ext × Call)) (x : Ext) (issuer user : String) (req b : Obj) (url k : String) (h1 : Handler)
    (hbefore : ∀ xc ∈ before, CallOk K k xc) (hkx : K (x.rnd "init_state"))
    (hbegin : begin_ x issuer user req b (run before h0) = (.ok (url, k), h1))
    (i : String) (hsetup : (clientSetup x issuer user b (run before h0)).1 = .ok i) (hne : i ≠ "")
    (after : List (Ext × Call)) (hafter : ∀ xc ∈ after, CallOk K k xc) (hkeep : NeverReplaced i after h1) :
    sessionIssuer (run after h1) k = .ok i ∧
    (state2issuer (run after h1) k = .ok (some (.str i))) ∧
    ∃ c, Dict.get? (run after h1).issuer2rp i = some c ∧ getClientFromSessionKey (run after h1) k = .ok c := by
  have hk : K k := by
    obtain ⟨_, _, _, _, _, b3, _⟩ := begin_ok hbegin
    exact init_key b3 ▸ hkx
  have hi0 : Inv K k none (run before h0) :=
    inv_run hK hk before (inv_new hnew.empty hnew.plain) hbefore (fun _ _ _ hw => by cases hw)
  have hn0 : Handler.Named (run before h0) := by
    refine named_run hK hk before (inv_new hnew.empty hnew.plain) ⟨hone, fun i c hm => ?_⟩ hbefore
    rw [hnew.empty] at hm
    cases hm
  exact C11_session_resolves_partial hK h0 hnew before x issuer user req b url k h1 hbefore hkx hbegin i hsetup hne
    (begun_named hK hkx hi0.plain hn0 hbegin i) after hafter hkeep

/-! ### Non-vacuity and violations -/

/-- The random values of the handler's third session. -/
def s3 : String := "abcdefghijklmnopqrstuvwxyzABCDE3"

/-- Before: a session is started. -/
def earlier : List (Ext × Call) :=
  [(World.ext 900 s3 "n3" "", .begin "https://op.example" "" [] []),
   (World.ext 901 "" "" "n3", .finalize "https://op.example" [("code", .str "code3"), ("state", .str s3)] [])]

/-- After: another session is started, both are finalized, tokens are refreshed, the other one is cleared. -/
def later : List (Ext × Call) :=
  [(World.ext 1001 World.s2 "n2" "", .begin "https://op.example" "" [] []),
   (World.ext 1002 "" "" "n2", .finalize "https://op.example" [("code", .str "code2"), ("state", .str World.s2)] []),
   (World.ext 1003 "" "" "n1", .finalize "https://op.example" [("code", .str "code1"), ("state", .str World.s1)] []),
   (World.ext 1004 "" "" "n2", .refresh World.s2 ""),
   (World.ext 1005 "" "" "n2", .clear World.s2)]

/-- The handler after `earlier` and the start of session `s1`. -/
def inFlight : Handler :=
  (begin_ (World.ext 1000 World.s1 "n1" "") "https://op.example" "" [] [] (run earlier World.handler)).2

theorem newWorld : NewHandler World.handler := by
  refine ⟨rfl, ⟨?_, ?_⟩⟩
  · intro n cc hm
    have : (n, cc) = ("", World.conf) := by simpa [World.handler] using hm
    injection this with _ h2
    subst h2
    intro o ho
    cases ho
  · intro i c hm
    cases hm

theorem gen_s1 : Spec.History.Generated World.s1 := by unfold Spec.History.Generated; decide
theorem gen_s2 : Spec.History.Generated World.s2 := by unfold Spec.History.Generated; decide
theorem gen_s3 : Spec.History.Generated s3 := by unfold Spec.History.Generated; decide

theorem earlier_ok : ∀ xc ∈ earlier, CallOk Spec.History.Generated World.s1 xc := by
  intro xc h
  simp only [earlier, List.mem_cons, List.not_mem_nil, or_false] at h
  rcases h with rfl | rfl
  · exact ⟨gen_s3, by decide⟩
  · trivial

theorem later_ok : ∀ xc ∈ later, CallOk Spec.History.Generated World.s1 xc := by
  intro xc h
  simp only [later, List.mem_cons, List.not_mem_nil, or_false] at h
  rcases h with rfl | rfl | rfl | rfl | rfl
  · exact ⟨gen_s2, by decide⟩
  · trivial
  · trivial
  · trivial
  · show World.s2 ≠ World.s1
    decide

theorem later_keeps : NeverReplaced "https://op.example" later inFlight :=
  ⟨fun _ => rfl, trivial, trivial, trivial, trivial, trivial⟩

theorem inFlight_named : NamedAfterIssuer inFlight "https://op.example" := by
  intro c hc
  have h1 : (Dict.get? inFlight.issuer2rp "https://op.example").map (fun c => c.ctx.issuer) = some "https://op.example" := by rfl
  rw [hc] at h1
  injection h1

/-- The theorem applies to these calls. -/
example : sessionIssuer (run later inFlight) World.s1 = .ok "https://op.example" ∧
    (run later inFlight).issuer2rp.length = 1 :=
  ⟨(C11_session_resolves_partial Props.C10_generated_keys_are_safe World.handler newWorld earlier
    (World.ext 1000 World.s1 "n1" "") "https://op.example" "" [] [] _ World.s1 inFlight earlier_ok gen_s1
    (by rfl) "https://op.example" (by rfl) (by decide) inFlight_named later later_ok later_keeps).1, by rfl⟩

/-- The configuration gives its provider one name. -/
example : ∀ n cc, (n, cc) ∈ World.handler.configs → OneName n cc := by
  intro n cc hm
  have : (n, cc) = ("", World.conf) := by simpa [World.handler] using hm
  injection this with h1 h2
  subst h1; subst h2
  exact ⟨by rfl, Or.inl (by rfl)⟩

/-- A configuration in which the provider's metadata name another issuer than the configuration does. -/
def misnamedConf : ClientConf :=
  { World.conf with config := World.conf.config ++
      [("issuer", .str "https://op.example"), ("client_id", .str "client1"), ("client_secret", .str "secret1"),
       ("provider_info", .obj (Dict.set World.metadata "issuer" (.str "https://op.example/")))] }

/-- The handler after `begin` with it. -/
def misnamed : Handler :=
  (begin_ (World.ext 1000 World.s1 "n1" "") "op" "" [] [] { World.handler with configs := [("op", misnamedConf)] }).2

/-- **C11** is violated if the name of the issuer in the configuration and in the configured metadata differ
(here in a trailing slash): `begin` succeeds, but the session cannot be resolved to the client that serves
it. -/
theorem C11_misnamed_violated :
    ((begin_ (World.ext 1000 World.s1 "n1" "") "op" "" [] []
      { World.handler with configs := [("op", misnamedConf)] }).1.toOption.map Prod.snd) = some World.s1 ∧
    Dict.keys misnamed.issuer2rp = ["https://op.example/"] ∧
    state2issuer misnamed World.s1 = .ok (some (.str "https://op.example")) ∧
    (getClientFromSessionKey misnamed World.s1).toOption.isNone = true ∧
    (exec (World.ext 1001 "" "" "n1") (.getTokens World.s1) misnamed).1.isOk = false := by
  refine ⟨by rfl, by rfl, by rfl, by rfl, by rfl⟩

/-- The first user starts a session by user identifier. -/
def firstUser : Handler :=
  (begin_ (World.ext 1000 World.s1 "n1" "") "" "acct:alice@op.example" [] [] World.handler).2

/-- Then a second user does. -/
def secondUser : Handler :=
  (begin_ (World.ext 1001 World.s2 "n2" "") "" "acct:bob@op.example" [] [] firstUser).2

/-- **C12** is violated: two users start sessions at the same provider by their user identifiers.  Both
`begin`s succeed; after the first one its session is resolved, after the second one it is lost, and the
provider's answer to the first user is refused. -/
theorem C12_begin_violated :
    sessionIssuer firstUser World.s1 = .ok "https://op.example" ∧
    sessionIssuer secondUser World.s2 = .ok "https://op.example" ∧
    sessionIssuer secondUser World.s1 = .error .keyError ∧
    (exec (World.ext 1002 "" "" "n1") (.finalize "https://op.example"
      [("code", .str "code1"), ("state", .str World.s1)] []) firstUser).1.isOk = true ∧
    (exec (World.ext 1002 "" "" "n1") (.finalize "https://op.example"
      [("code", .str "code1"), ("state", .str World.s1)] []) secondUser).1.isOk = false := by
  refine ⟨by rfl, by rfl, by rfl, by rfl, by rfl⟩

/-- The same with the name of a configuration that is not the issuer. -/
theorem C12_alias_violated :
    sessionIssuer (begin_ (World.ext 1000 World.s1 "n1" "") "op" "" [] []
      { World.handler with configs := [("op", { World.conf with config := World.conf.config ++
        [("issuer", .str "https://op.example")] })] }).2 World.s1 = .ok "https://op.example" ∧
    sessionIssuer (begin_ (World.ext 1001 World.s2 "n2" "") "op" "" [] []
      (begin_ (World.ext 1000 World.s1 "n1" "") "op" "" [] []
      { World.handler with configs := [("op", { World.conf with config := World.conf.config ++
        [("issuer", .str "https://op.example")] })] }).2).2 World.s1 = .error .keyError := by
  refine ⟨by rfl, by rfl⟩

/-- **C12**, nobody named: starting a session with neither a provider nor a user is refused, and nothing changes. -/
theorem C12_nobody_named (x : Ext) (req b : Obj) (h : Handler) :
    begin_ x "" "" req b h = (.error .valueError, h) := by
  rfl

/-- `begin` calls of other sessions that name the provider kept as `i` by `i`, or end up at another one. -/
def OtherBegins (K : String → Prop) (k i : String) : List (Ext × Call) → Handler → Prop
  | [], _ => True
  | (x, .begin issuer user req b) :: l, h =>
    K (x.rnd "init_state") ∧ x.rnd "init_state" ≠ k ∧
    ((clientSetup x issuer user b h).1 = .ok i → issuer = i) ∧
    OtherBegins K k i l (exec x (.begin issuer user req b) h).2
  | _ :: _, _ => False

theorem OtherBegins.ok {K : String → Prop} {k i : String} : ∀ {l : List (Ext × Call)} {h : Handler},
    OtherBegins K k i l h → (∀ xc ∈ l, CallOk K k xc) ∧ NeverReplaced i l h := by
  intro l
  induction l with
  | nil => intro h _; exact ⟨by simp, trivial⟩
  | cons xc l ih =>
    obtain ⟨x, call⟩ := xc
    intro h hl
    cases call with
    | begin issuer user req b =>
      obtain ⟨h1, h2, h3, h4⟩ := hl
      obtain ⟨i1, i2⟩ := ih h4
      refine ⟨?_, h3, i2⟩
      intro xc hxc
      rcases List.mem_cons.1 hxc with rfl | hxc
      · exact ⟨h1, h2⟩
      · exact i1 xc hxc
    | _ => exact hl.elim

/-- **C12**, what holds.  After any calls and a `begin` that returned `k` for the client kept as `i`, any
number of further `begin`s that name that provider by `i` or end up at other providers (by whatever name)
leave `k` resolvable, to `i`.  Missing: `begin`s that reach the same provider by another name or by user
identifier, see `C12_begin_violated` and `C12_alias_violated`. -/
theorem C12_begins_keep_partial {K : String → Prop} (hK : KeySpace K) (h0 : Handler) (hnew : NewHandler h0)
    (before : List (Ext × Call)) (x : Ext) (issuer user : String) (req b : Obj) (url k : String) (h1 : Handler)
    (hbefore : ∀ xc ∈ before, CallOk K k xc) (hkx : K (x.rnd "init_state"))
    (hbegin : begin_ x issuer user req b (run before h0) = (.ok (url, k), h1))
    (i : String) (hsetup : (clientSetup x issuer user b (run before h0)).1 = .ok i) (hne : i ≠ "")
    (hname : NamedAfterIssuer h1 i)
    (begins : List (Ext × Call)) (hothers : OtherBegins K k i begins h1) :
    sessionIssuer (run begins h1) k = .ok i :=
  (C11_session_resolves_partial hK h0 hnew before x issuer user req b url k h1 hbefore hkx hbegin i hsetup hne hname
    begins hothers.ok.1 hothers.ok.2).1

/-- Non-vacuity: other sessions at the same provider. -/
example : OtherBegins Spec.History.Generated World.s1 "https://op.example"
    [(World.ext 1001 World.s2 "n2" "", .begin "https://op.example" "" [] []),
     (World.ext 1001 s3 "n3" "", .begin "https://op.example" "" [] [])] inFlight :=
  ⟨gen_s2, by decide, fun _ => rfl, gen_s3, by decide, fun _ => rfl, trivial⟩

end Verif.Props
