import Verif.Props.Office
import Verif.Props.Setup
/-!
# C126: the hypotheses, after whatever history; and what is violated
-/

namespace Verif.Props
open Verif Verif.Service Verif.Handler Verif.Desk Verif.Office Verif.StateInterface Verif.Spec.Desk Verif.Spec.Office Verif.Spec.InFlight
open Verif.Spec.Store (KeySpace)

/-! ## The `behaviour` of a configuration is that of its clients -/

/-- The client's `behaviour` is that of its configuration. -/
def Fits (h : Handler) (c : Client) : Prop :=
  ∀ cc, Dict.get? h.configs c.cfg = some cc → Dict.has cc.config "behaviour" = true →
    Dict.get? cc.config "behaviour" = some (.obj c.ctx.behaviour)

theorem mem_set {α : Type} : ∀ {d : Dict α} {k : String} {v : α} {p : String × α}, p ∈ Dict.set d k v → p = (k, v) ∨ p ∈ d
  | [], k, v, p, h => by
    simp only [Dict.set, List.mem_cons, List.not_mem_nil, or_false] at h
    exact .inl h
  | (k', w) :: d, k, v, p, h => by
    unfold Dict.set at h
    split at h
    · next e =>
      rcases List.mem_cons.1 h with h | h
      · exact .inl (by rw [h, e])
      · exact .inr (List.mem_cons_of_mem _ h)
    · rcases List.mem_cons.1 h with h | h
      · exact .inr (h ▸ List.mem_cons_self ..)
      · rcases mem_set h with h | h
        · exact .inl h
        · exact .inr (List.mem_cons_of_mem _ h)

theorem fits_share (c : Client) (h : Handler) : Fits (share c.cfg c.ctx.behaviour h) c := by
  intro cc hcc hb
  unfold share at hcc
  split at hcc
  · next e => rw [e] at hcc; cases hcc
  · next cc0 e =>
    split at hcc
    · rw [Dict.get?_set_self] at hcc
      injection hcc with hcc
      subst hcc
      exact Dict.get?_set_self ..
    · next hn => rw [e] at hcc; injection hcc with hcc; subst hcc; exact absurd hb hn

theorem shared_share {h : Handler} {cfg : String} {b : Obj} (hs : ∀ i c, (i, c) ∈ h.issuer2rp → c.cfg ≠ cfg → Fits h c) :
    Shared (share cfg b h) := by
  intro i c cc hm hcc hb
  unfold share at hm hcc
  split at hm
  · next e =>
    rw [e] at hcc
    simp only at hcc
    by_cases e' : c.cfg = cfg
    · rw [e', e] at hcc; cases hcc
    · exact hs i c hm e' cc hcc hb
  · next cc0 e =>
    rw [e] at hcc
    simp only at hcc
    split at hm
    · next hb0 =>
      rw [if_pos hb0] at hcc
      obtain ⟨p, hp, e1⟩ := List.mem_map.1 hm
      obtain ⟨j, d⟩ := p
      injection e1 with e1 e2
      subst e1
      unfold sharedClient at e2
      split at e2
      · next e3 =>
        subst e2
        simp only at hcc ⊢
        rw [e3, Dict.get?_set_self] at hcc
        injection hcc with hcc
        subst hcc
        exact Dict.get?_set_self ..
      · next e3 =>
        subst e2
        simp only at hcc
        rw [Dict.get?_set_ne _ _ (Ne.symm e3)] at hcc
        exact hs _ _ hp e3 cc hcc hb
    · next hn =>
      rw [if_neg hn] at hcc
      by_cases e' : c.cfg = cfg
      · rw [e', e] at hcc; injection hcc with hcc; subst hcc; exact absurd hb hn
      · exact hs i c hm e' cc hcc hb

theorem shared_onClient {α : Type} {i : String} {m : Py Client α} {h : Handler} (hs : Shared h) : Shared (onClient i m h).2 := by
  unfold onClient
  split
  · exact hs
  · next c hc =>
    refine shared_share fun j d hm hne => ?_
    rcases mem_set hm with e | hm
    · injection e with _ e; subst e; exact absurd rfl hne
    · exact fun cc => hs j d cc hm

theorem shared_onSession {α : Type} {k : String} {m : Py Client α} {h : Handler} (hs : Shared h) : Shared (onSession k m h).2 := by
  unfold onSession
  split
  · exact hs
  · exact shared_onClient hs

theorem shared_onNew {α : Type} {c : Client} {m : Py Client α} {h : Handler} (hs : Shared h) : Shared (onNew c m h).2 :=
  shared_share fun j d hm _ cc => hs j d cc hm

theorem shared_initClient {x : Ext} {i : String} {h : Handler} (hs : Shared h) : Shared (initClient x i h).2 := by
  unfold initClient
  split
  · exact hs
  · split
    · exact hs
    · next cc0 e =>
      intro j c cc hm hcc hb
      simp only at hm hcc
      rw [Dict.get?_set] at hcc
      split at hcc
      · next e' =>
        injection hcc with hcc
        subst hcc
        simp only at hb ⊢
        rw [Dict.get?_set_ne _ _ (by decide)]
        rw [Dict.has_eq, Dict.get?_set_ne _ _ (by decide)] at hb
        exact hs j c cc0 hm (e' ▸ e) hb
      · exact hs j c cc hm hcc hb

theorem shared_adopt {x : Ext} {c : Client} {i : String} {b : Obj} {h : Handler} (hs : Shared h) : Shared (adopt x c i b h).2 := by
  unfold adopt
  rw [Py.bind_run]
  have h1 : Shared (onNew c (doProviderInfo x) h).2 := shared_onNew hs
  rcases hr : onNew c (doProviderInfo x) h with ⟨q, g⟩
  rw [hr] at h1
  cases q with
  | error e => exact h1
  | ok r =>
    simp only
    rw [Py.modify_bind_run]
    have h2 : Shared { g with hash2issuer := Dict.set g.hash2issuer i r.2.ctx.issuer } := h1
    generalize { g with hash2issuer := Dict.set g.hash2issuer i r.2.ctx.issuer } = g' at h2 ⊢
    rw [Py.bind_run]
    have h3 : Shared (onNew r.2 (register x b) g').2 := shared_onNew h2
    rcases hq : onNew r.2 (register x b) g' with ⟨q, f⟩
    rw [hq] at h3
    cases q with
    | error e => exact h3
    | ok s =>
      simp only
      rw [Py.modify_bind_run]
      have hf : Fits f s.2 := by
        unfold onNew at hq
        injection hq with e1 e2
        cases hm : (register x b r.2).1 with
        | error e => rw [hm] at e1; cases e1
        | ok a =>
          rw [hm] at e1
          injection e1 with e1
          rw [← e1, ← e2]
          exact fits_share _ _
      intro j d cc hm hcc hb
      rcases mem_set hm with e | hm
      · injection e with _ e; subst e; exact hf cc hcc hb
      · exact h3 j d cc hm hcc hb

theorem shared_clientSetup {x : Ext} {i u : String} {b : Obj} {h : Handler} (hs : Shared h) : Shared (clientSetup x i u b h).2 := by
  unfold clientSetup
  split
  · exact hs
  · split
    · rw [Py.bind_run]
      have h1 : Shared (doWebfinger x u h).2 := by
        unfold doWebfinger
        rw [Py.bind_run]
        have h0 : Shared (initClient x "" h).2 := shared_initClient hs
        rcases hi : initClient x "" h with ⟨q, g⟩
        rw [hi] at h0
        cases q with
        | error e => exact h0
        | ok c =>
          simp only
          rw [Py.bind_run]
          have h2 : Shared (onNew c (doRequest x .webfinger [] {} [("resource", .str u)]) g).2 := shared_onNew h0
          rcases hw : onNew c (doRequest x .webfinger [] {} [("resource", .str u)]) g with ⟨q, f⟩
          rw [hw] at h2
          cases q <;> exact h2
      rcases hw : doWebfinger x u h with ⟨q, g⟩
      rw [hw] at h1
      cases q with
      | error e => exact h1
      | ok c =>
        simp only
        rw [Py.read_bind_run]
        split
        · exact h1
        · exact shared_adopt h1
    · rw [Py.read_bind_run]
      split
      · exact hs
      · rw [Py.bind_run]
        have h0 : Shared (initClient x i h).2 := shared_initClient hs
        rcases hi : initClient x i h with ⟨q, g⟩
        rw [hi] at h0
        cases q with
        | error e => exact h0
        | ok c => exact shared_adopt h0

theorem shared_ret {α : Type} {f : α → Ret} {m : Py Handler α} {h : Handler} (hs : Shared (m h).2) : Shared (ret f m h).2 := hs

theorem shared_exec {x : Ext} {c : Call} {h : Handler} (hs : Shared h) : Shared (exec x c h).2 := by
  cases c with
  | begin i u r b =>
    refine shared_ret ?_
    unfold begin_
    rw [Py.bind_run]
    have h1 : Shared (clientSetup x i u b h).2 := shared_clientSetup hs
    rcases hw : clientSetup x i u b h with ⟨q, g⟩
    rw [hw] at h1
    cases q with
    | error e => exact h1
    | ok c => exact shared_onClient h1
  | finalize i r b => exact shared_ret (shared_onClient hs)
  | getTokens s => exact shared_ret (shared_onSession hs)
  | refresh s sc => exact shared_ret (shared_onSession hs)
  | userInfo s t => exact shared_ret (shared_onSession hs)
  | hasActive s => exact shared_ret (shared_onSession hs)
  | validToken s => exact shared_ret (shared_onSession hs)
  | logout s u => exact shared_ret (shared_onSession hs)
  | close s i u =>
    refine shared_ret ?_
    unfold close
    split
    · exact shared_onClient hs
    · exact shared_onSession hs
  | clear s => exact shared_ret (shared_onSession hs)
  | backchannel i info => exact shared_ret (shared_onClient hs)

theorem shared_run : ∀ (l : List (Ext × Call)) {h : Handler}, Shared h → Shared (run l h)
  | [], _, hs => hs
  | _ :: l, _, hs => shared_run l (shared_exec hs)

/-- **C126**, its hypotheses: after whatever history of calls, the names of the clients are distinct, the `behaviour` of a
configuration is that of its clients, what is stored is stored under generated values; and a session value no call drew is
known to no client and begun at none. -/
theorem C126_history {K : String → Prop} (hK : KeySpace K) (h0 : Handler) (hnew : NewHandler h0) (before : List (Ext × Call)) (k : String)
    (hk : K k) (hbefore : ∀ xc ∈ before, CallOk K k xc) :
    (Dict.keys (run before h0).issuer2rp).Nodup ∧ Shared (run before h0) ∧
    (∀ i c, Dict.get? (run before h0).issuer2rp i = some c → Known K c.db) ∧
    (∀ i c, Dict.get? (run before h0).issuer2rp i = some c → getIss c.db k = .error .keyError) ∧
    (∀ i c, Dict.get? (run before h0).issuer2rp i = some c → NotBegun k c.db) := by
  have hi : Inv K k none (run before h0) := inv_run hK hk before (inv_new hnew.empty hnew.plain) hbefore (fun _ _ _ hw => by cases hw)
  have hst : ∀ i c, Dict.get? (run before h0).issuer2rp i = some c → Dict.get? (stores (run before h0)) i = some c.db := by
    intro i c hc
    rw [get?_stores, hc]; rfl
  refine ⟨?_, shared_run before ?_, fun i c hc => hi.known i _ (hst i c hc), fun i c hc => hi.away i _ (hst i c hc) (fun _ _ _ hw => by cases hw),
    fun i c hc => C125_not_begun hK h0 hnew before k hk hbefore i c hc⟩
  · have := hi.nodup
    have e : Dict.keys (stores (run before h0)) = Dict.keys (run before h0).issuer2rp := by
      simp [stores, Dict.keys, List.map_map, Function.comp_def]
    rw [e] at this
    exact this
  · intro i c cc hm
    rw [hnew.empty] at hm
    cases hm

/-! ## Non-vacuity -/

/-- Providers `a` and `b` are set up; a session was started at each. -/
def startedTwo : List (Ext × Call) :=
  [(ext2 1000 World.s1 "n1" "", .begin "https://a.example" "" [] []), (ext2 1000 s3 "n3" "", .begin "https://b.example" "" [] [])]

def bothThere : Handler := run startedTwo twoConfigs

/-- Two threads: each logs in at a provider of its own. -/
def twoClerks (u : Bool) : List (Ext × Call) :=
  match u with
  | true => [(ext2 1003 World.s2 "n2" "n2", .begin "https://a.example" "" [] []),
     (ext2 1004 "" "" "n2", .finalize "https://a.example" [("code", .str "code2"), ("state", .str World.s2)] []),
     (ext2 1005 "" "" "n2", .refresh World.s2 "")]
  | false => [(ext2 1003 s4 "n4" "n4", .begin "https://b.example" "" [] []),
     (ext2 1004 "" "" "n4", .finalize "https://b.example" [("code", .str "code4"), ("state", .str s4)] []),
     (ext2 1005 "" "" "n4", .validToken s4)]

def bothTurns : Nat → List Bool
  | 0 => []
  | m + 1 => true :: false :: bothTurns m

theorem new2 : NewHandler twoConfigs := by
  refine ⟨rfl, ⟨?_, ?_⟩⟩
  · intro n cc hm
    simp only [twoConfigs, List.mem_cons, List.not_mem_nil, or_false] at hm
    rcases hm with h | h
    · injection h with _ h
      subst h
      intro o ho
      cases ho
    · injection h with _ h
      subst h
      intro o ho
      cases ho
  · intro i c hm
    cases hm

theorem startedTwo_ok {k : String} (h1 : k ≠ World.s1) (h3 : k ≠ s3) : ∀ xc ∈ startedTwo, CallOk Spec.History.Generated k xc := by
  intro xc h
  simp only [startedTwo, List.mem_cons, List.not_mem_nil, or_false] at h
  rcases h with rfl | rfl
  · exact ⟨gen_s1, Ne.symm h1⟩
  · exact ⟨gen_s3, Ne.symm h3⟩

theorem gen_s4 : Spec.History.Generated s4 := by unfold Spec.History.Generated; decide

theorem ext2_forgetful (now : Int) (a b n : String) : Forgetful (ext2 now a b n) := fun _ _ _ => rfl

theorem ext2_answers (now : Int) (a b n st : String) (code : Val) :
    AnswersSession st (ext2 now a b n) [("code", code), ("state", .str st)] := by
  intro ctx o args v h1 h2
  have h1' : (.ok [("code", code), ("state", .str st)] : Except Exc Obj) = .ok o := h1
  injection h1' with h1'
  subst h1'
  have h2' : (.ok [("code", code), ("state", .str st)] : Except Exc Obj) = .ok v := h2
  injection h2' with h2'
  subst h2'
  rfl

/-- What is looked at of a client. -/
def settledClient (i : String) (c : Client) : Bool :=
  c.ctx.issuer == i && (Dict.get? (confOf c .authorization) "pre_construct").isNone && !Dict.has c.ctx.addOn "dpop" &&
    (Dict.get? (confObj c.ctx.config "request_args") "nonce").isNone &&
    Dict.get? c.ctx.behaviour "scope" == some (.list [.str "openid"])

theorem bothThere_ready {i n k : String} {x : Ext} {us : String} {rest : List (Ext × Call)} (hne : i ≠ "")
    (hk : Spec.History.Generated k) (h1 : k ≠ World.s1) (h3 : k ≠ s3)
    (hc : (Dict.get? bothThere.issuer2rp i).map (fun c => settledClient i c && (initAuthorization x [] [] c).1.isOk) = some true)
    (hs : x.rnd "init_state" = k) (hn : x.rnd "init_nonce" = n) (hn' : n ≠ "") (hx : Forgetful x)
    (hown : ∀ xc ∈ rest, OwnCall i k xc.2) (hjobs : ∀ xj ∈ jobs rest, OwnJob k xj) :
    Ready bothThere i n k ((x, .begin i us [] []) :: rest) := by
  obtain ⟨_, _, _, p4, p5⟩ := C126_history Props.C10_generated_keys_are_safe twoConfigs new2 startedTwo k hk (startedTwo_ok h1 h3)
  refine ⟨hne, fun xc hxc => ?_, ?_, fun j c hj _ => p4 j c hj⟩
  · rcases List.mem_cons.1 hxc with e | e
    · subst e; rfl
    · exact hown xc e
  · cases hg : Dict.get? bothThere.issuer2rp i with
    | none => rw [hg] at hc; cases hc
    | some c =>
      rw [hg] at hc
      simp only [Option.map_some, Option.some.injEq, Bool.and_eq_true, settledClient, beq_iff_eq, Bool.not_eq_true', Option.isNone_iff_eq_none] at hc
      obtain ⟨⟨⟨⟨⟨c1, c2⟩, c3⟩, c4⟩, c5⟩, c6⟩ := hc
      refine ⟨c, rfl, c1, fun o ho => ?_, fun hd => ?_, .inl ⟨x, [], [], jobs rest, rfl, hs, hn, hn', hx, p5 i c hg, rfl, c4, ?_, c6, hjobs⟩⟩
      · rw [c2] at ho; cases ho
      · rw [c3] at hd; cases hd
      · refine .inr (.inr fun l hl => ?_)
        rw [c5] at hl
        injection hl with hl
        injection hl with hl
        rw [← hl]
        decide

set_option maxRecDepth 100000 in
/-- Non-vacuity: two threads log in, each at a provider of its own, taking turns step by step; both finish, all calls succeed, with
what they do alone. -/
example : (∀ u : Bool, ∀ l : List Bool, (((Office.start bothThere twoClerks).run l).clerk u).finished →
      SameResults (((Office.start bothThere twoClerks).run l).clerk u).results (Spec.Office.inTurn (twoClerks u) bothThere).1) ∧
    (∀ u : Bool, (((Office.start bothThere twoClerks).run (bothTurns 130)).clerk u).finished ∧
      (((Office.start bothThere twoClerks).run (bothTurns 130)).clerk u).results.all (·.isOk) = true ∧
      (((Office.start bothThere twoClerks).run (bothTurns 130)).clerk u).results.length = 3) := by
  refine ⟨fun u l hl => ?_, fun u => ?_⟩
  · obtain ⟨p1, p2, p3, _⟩ := C126_history Props.C10_generated_keys_are_safe twoConfigs new2 startedTwo World.s2 gen_s2 (startedTwo_ok (by decide) (by decide))
    refine ((C126_as_if_alone_partial (K := Spec.History.Generated) Props.C10_generated_keys_are_safe bothThere
      (fun u : Bool => if u then "https://a.example" else "https://b.example") (fun u : Bool => if u then World.s2 else s4)
      (fun u : Bool => if u then "n2" else "n4") twoClerks p1 p2 p3 ?_ ?_ ?_ ?_ u).2 l hl).1
    · intro v
      cases v
      · exact gen_s4
      · exact gen_s2
    · decide
    · decide
    · intro v
      cases v with
      | true =>
        refine bothThere_ready (by decide) gen_s2 (by decide) (by decide) (by decide +kernel) rfl rfl (by decide) (ext2_forgetful _ _ _ _)
          (fun xc hx => ?_) (fun xj hx => ?_)
        · simp only [List.mem_cons, List.not_mem_nil, or_false] at hx
          rcases hx with rfl | rfl <;> rfl
        · simp only [jobs, List.map, List.mem_cons, List.not_mem_nil, or_false] at hx
          rcases hx with rfl | rfl
          · exact ⟨ext2_forgetful _ _ _ _, ext2_answers _ _ _ _ _ _⟩
          · exact ⟨ext2_forgetful _ _ _ _, rfl⟩
      | false =>
        refine bothThere_ready (by decide) gen_s4 (by decide) (by decide) (by decide +kernel) rfl rfl (by decide) (ext2_forgetful _ _ _ _)
          (fun xc hx => ?_) (fun xj hx => ?_)
        · simp only [List.mem_cons, List.not_mem_nil, or_false] at hx
          rcases hx with rfl | rfl <;> rfl
        · simp only [jobs, List.map, List.mem_cons, List.not_mem_nil, or_false] at hx
          rcases hx with rfl | rfl
          · exact ⟨ext2_forgetful _ _ _ _, ext2_answers _ _ _ _ _ _⟩
          · exact rfl
  · have gen : ∀ (t : Clerk), ((t.stage matches .idle) && t.todo.isEmpty && t.results.all (·.isOk) && t.results.length == 3) = true →
        t.finished ∧ t.results.all (·.isOk) = true ∧ t.results.length = 3 := by
      intro t h
      simp only [Bool.and_eq_true, beq_iff_eq] at h
      exact ⟨⟨h.1.1.1, List.isEmpty_iff.1 h.1.1.2⟩, h.1.2, h.2⟩
    refine gen _ ?_
    revert u
    decide +kernel

/-! ## What is violated -/

/-- A session is running at `a`; `b` is not set up. -/
def runningAtA : Handler :=
  run [(ext2 1000 World.s1 "n1" "", .begin "https://a.example" "" [] []),
    (ext2 1002 "" "" "n1", .finalize "https://a.example" [("code", .str "code1"), ("state", .str World.s1)] [])] twoConfigs

/-- One thread asks for the token of the session; another logs in at `b`. -/
def askAndBegin (u : Bool) : List (Ext × Call) :=
  if u then [(ext2 1003 "" "" "", .validToken World.s1)] else [(ext2 1003 World.s2 "n2" "n2", .begin "https://b.example" "" [] [])]

/-- What was raised. -/
def raised (l : List (Except Exc Ret)) : List (Option Exc) :=
  l.map (fun r => match r with
    | .ok _ => none
    | .error e => some e)

set_option maxRecDepth 100000 in
/-- **C126** is violated when a provider is set up meanwhile: the call for the running session raises `RuntimeError` if the client of
another provider is added while it looks for the session.  Alone, the call returns the token. -/
theorem C126_lookup_violated :
    raised (((Office.start runningAtA askAndBegin).run [true, false, true]).clerk true).results = [some (.external "RuntimeError")] ∧
    raised (Spec.Office.inTurn (askAndBegin true) runningAtA).1 = [none] ∧
    raised (Spec.Office.inTurn (askAndBegin false) runningAtA).1 = [none] := by
  refine ⟨?_, ?_, ?_⟩ <;> decide +kernel

end Verif.Props
