import Verif.Lemmas.Office
import Verif.Props.DeskWhole
/-!
# C126: calls of the handler made at the same time, at any number of providers
-/

namespace Verif.Spec.Office
open Verif Verif.Service Verif.Handler Verif.Desk Verif.StateInterface Verif.Spec.Desk

/-- The calls, each as a whole, one after the other: what they return or raise, and the handler in the end. -/
def inTurn : List (Ext × Call) → Handler → List (Except Exc Ret) × Handler
  | [], h => ([], h)
  | (x, c) :: l, h => ((exec x c h).1 :: (inTurn l (exec x c h).2).1, (inTurn l (exec x c h).2).2)

/-- The `behaviour` of a configuration is that of the clients made of it. -/
def Shared (h : Handler) : Prop :=
  ∀ i c cc, (i, c) ∈ h.issuer2rp → Dict.get? h.configs c.cfg = some cc → Dict.has cc.config "behaviour" = true →
    Dict.get? cc.config "behaviour" = some (.obj c.ctx.behaviour)

/-- A call that is for provider `i` or for session `k`. -/
def OwnCall (i k : String) : Call → Prop
  | .begin j _ _ _ => j = i
  | .finalize j _ _ => j = i
  | .getTokens s => s = k
  | .refresh s _ => s = k
  | .userInfo s _ => s = k
  | .hasActive s => s = k
  | .validToken s => s = k
  | .logout s _ => s = k
  | .close s j _ => s = k ∧ (j = i ∨ j = "")
  | .clear _ => False
  | .backchannel _ _ => False

/-- What such a call does at the client. -/
def job : Call → Job
  | .begin _ _ r b => .begin r b
  | .finalize i r b => .finalize i r b
  | .getTokens s => .getTokens s
  | .refresh s sc => .refresh s sc
  | .userInfo s t => .userInfo s t
  | .hasActive s => .hasActive s
  | .validToken s => .validToken s
  | .logout s u => .logout s u
  | .close s _ u => .logout s u
  | .clear s => .hasActive s
  | .backchannel _ _ => .hasActive ""

/-- What the calls do at the client. -/
def jobs (l : List (Ext × Call)) : List (Ext × Job) := l.map (fun xc => (xc.1, job xc.2))

/-- A thread that makes calls for provider `i` and session `k`, whose nonce is `n`: the client of the provider is there; the thread
makes a whole login, from `begin` on, or its session is in flight or running there; no other client knows the session. -/
structure Ready (h : Handler) (i n k : String) (calls : List (Ext × Call)) : Prop where
  name : i ≠ ""
  own : ∀ xc ∈ calls, OwnCall i k xc.2
  here : ∃ c, Dict.get? h.issuer2rp i = some c ∧ c.ctx.issuer = i ∧
    (∀ o, Dict.get? (confOf c .authorization) "pre_construct" = some (.obj o) → Dict.get? o "state" = none) ∧
    (Dict.has c.ctx.addOn "dpop" = true → c.dpopKey.isSome) ∧
    (Login c n k (jobs calls) ∨ (InFlight c n k (jobs calls) ∧ getIss c.db k = .ok (.str i)))
  away : ∀ j c, Dict.get? h.issuer2rp j = some c → j ≠ i → getIss c.db k = .error .keyError

end Verif.Spec.Office

namespace Verif.Office
open Verif Verif.Service Verif.Handler Verif.Desk Verif.StateInterface Verif.Spec.Desk Verif.Spec.Office
open Verif.Spec.Store (KeySpace)

/-! ## Dictionaries -/

theorem set_same {α : Type} : ∀ {d : Dict α} {k : String} {v : α}, Dict.get? d k = some v → Dict.set d k v = d
  | [], _, _, h => by cases h
  | (k', w) :: d, k, v, h => by
    unfold Dict.get? at h
    unfold Dict.set
    split at h
    · next e => injection h with h; subst e h; simp
    · next e => rw [if_neg e, set_same h]

theorem get?_mapKey {α β : Type} (f : String → α → β) : ∀ (d : Dict α) (k : String),
    Dict.get? (d.map (fun p => (p.1, f p.1 p.2))) k = (Dict.get? d k).map (f k)
  | [], _ => rfl
  | (k', w) :: d, k => by
    show (if k' = k then some (f k' w) else Dict.get? (d.map (fun p => (p.1, f p.1 p.2))) k) = (if k' = k then some w else Dict.get? d k).map (f k)
    rw [get?_mapKey f d k]
    split
    · next e => subst e; rfl
    · rfl

theorem set_mapKey {α β : Type} {f g : String → α → β} : ∀ {d : Dict α} {k : String} {v : β}, (Dict.keys d).Nodup → Dict.has d k = true →
    (∀ w, g k w = v) → (∀ k' w, k' ≠ k → g k' w = f k' w) →
    Dict.set (d.map (fun p => (p.1, f p.1 p.2))) k v = d.map (fun p => (p.1, g p.1 p.2))
  | [], _, _, _, h, _, _ => by cases h
  | (k', w) :: d, k, v, hn, h, h1, h2 => by
    have hn1 : k' ∉ Dict.keys d := (List.nodup_cons.1 hn).1
    have hn2 : (Dict.keys d).Nodup := (List.nodup_cons.1 hn).2
    show Dict.set ((k', f k' w) :: d.map (fun p => (p.1, f p.1 p.2))) k v = (k', g k' w) :: d.map (fun p => (p.1, g p.1 p.2))
    unfold Dict.set
    split
    · next e =>
      subst e
      rw [h1]
      congr 1
      refine List.map_congr_left fun p hp => ?_
      have : p.1 ≠ k' := fun e => hn1 (e ▸ List.mem_map_of_mem (f := Prod.fst) hp)
      rw [h2 _ _ this]
    · next e =>
      rw [h2 _ _ e, set_mapKey hn2 ?_ h1 h2]
      rw [Dict.has_eq] at h ⊢
      unfold Dict.get? at h
      rw [if_neg e] at h
      exact h

/-- Sharing what is shared already. -/
theorem share_same {H : Handler} {cfg : String} {b : Obj}
    (h1 : ∀ cc, Dict.get? H.configs cfg = some cc → Dict.has cc.config "behaviour" = true → Dict.get? cc.config "behaviour" = some (.obj b) ∧
      ∀ p ∈ H.issuer2rp, p.2.cfg = cfg → p.2.ctx.behaviour = b) : share cfg b H = H := by
  unfold share
  split
  · rfl
  · next cc hcc =>
    split
    · next hb =>
      obtain ⟨a1, a2⟩ := h1 cc hcc hb
      have e1 : Dict.set cc.config "behaviour" (.obj b) = cc.config := set_same a1
      have e2 : Dict.set H.configs cfg cc = H.configs := set_same hcc
      have e3 : H.issuer2rp.map (fun p => (p.1, sharedClient cfg b p.2)) = H.issuer2rp := by
        conv => rhs; rw [← List.map_id H.issuer2rp]
        refine List.map_congr_left fun p hp => ?_
        obtain ⟨q, c⟩ := p
        show (q, sharedClient cfg b c) = (q, c)
        unfold sharedClient
        split
        · next e => rw [← a2 _ hp e]
        · rfl
      rw [e1, e3]
      show { H with configs := Dict.set H.configs cfg cc, issuer2rp := H.issuer2rp } = H
      rw [e2]
    · rfl

/-! ## The threads at one client -/

/-- How a thread starts. -/
theorem linked_ready {K : String → Prop} (hK : KeySpace K) {c : Client} {n k : String} (hk : K k) {l : List (Ext × Job)}
    (hplain : ∀ o, Dict.get? (confOf c .authorization) "pre_construct" = some (.obj o) → Dict.get? o "state" = none)
    (hdpop : Dict.has c.ctx.addOn "dpop" = true → c.dpopKey.isSome) (h : Login c n k l ∨ InFlight c n k l) :
    Linked K c n k ⟨none, l, [], []⟩ ⟨none, l, [], []⟩ c c := by
  have hlike : Like c c := ⟨rfl, rfl, rfl, rfl, rfl⟩
  rcases h with ⟨x, req, b, rest, h1, h2, h3, h4, h5, h6, h7, h8, h9, h10, h11⟩ | ⟨h1, h2⟩
  · rw [h1]
    obtain ⟨args, ha⟩ := Props.initArgs_of_ok h10
    have hop := opening_begin (κ := c) hK (x := x) (h2 ▸ hk) (h3 ▸ h4) h5 req b ha ⟨h7, h8⟩ hplain (Props.aliasScope_settled h9)
    have hop' := Props.opening_login hop
    rw [h2, h3] at hop'
    have hu : Unused k c.db := ⟨⟨h6.nameless, fun v hv => h6.nonce v hv⟩, h6.refs⟩
    exact .waiting ⟨hlike, hlike, hdpop, hu, hu, rfl⟩ hop' h11
  · exact .running ⟨⟨rfl, rfl, rfl, rfl, fun hd => ⟨hdpop hd, rfl⟩, rfl, h1, h1⟩, hlike, hlike⟩ (Same.refl _)
      ⟨fun _ h => (by cases h), h2⟩

variable {ι : Type} [DecidableEq ι]

section Sim
variable (h0 : Handler) (provider : ι → String) (calls : ι → List (Ext × Call))

/-- The client of a provider, at the start. -/
def client0 (i : String) : Client := (Dict.get? h0.issuer2rp i).getD default

/-- The threads at a provider. -/
def deskOf (i : String) : Desk {v : ι // provider v = i} := Desk.start (client0 h0 i) (fun v => jobs (calls v.1))

/-- Schedules for all providers. -/
abbrev Plan := (i : String) → List {v : ι // provider v = i}

/-- A thread goes a piece further at its provider. -/
def bump (L : Plan provider) (u : ι) : Plan provider := fun i => if e : provider u = i then L i ++ [⟨u, e⟩] else L i

/-- The handler when the threads at each provider have come so far. -/
def handlerAt (L : Plan provider) : Handler :=
  { h0 with issuer2rp := h0.issuer2rp.map (fun p => (p.1, ((deskOf h0 provider calls p.1).run (L p.1)).client)) }

/-- A thread of the office and its part at the desk. -/
inductive Match (names : List String) (i k : String) : Clerk → Thread → Prop where
  | idle {todo : List (Ext × Call)} {results : List (Except Exc Ret)} {sent : List Sent} (own : ∀ xc ∈ todo, OwnCall i k xc.2) :
      Match names i k ⟨.idle, todo, results, sent⟩ ⟨none, jobs todo, results, sent⟩
  | look {x : Ext} {c : Call} {left : List String} {todo : List (Ext × Call)} {results : List (Except Exc Ret)} {sent : List Sent}
      (hi : i ∈ left) (hsub : ∀ j ∈ left, j ∈ names) (hw : way c = .session k (job c)) (own : ∀ xc ∈ todo, OwnCall i k xc.2) :
      Match names i k ⟨.look x (job c) k names.length left, todo, results, sent⟩ ⟨none, (x, job c) :: jobs todo, results, sent⟩
  | work {p : Pieces Ret} {todo : List (Ext × Call)} {results : List (Except Exc Ret)} {sent : List Sent}
      (own : ∀ xc ∈ todo, OwnCall i k xc.2) :
      Match names i k ⟨.work i p, todo, results, sent⟩ ⟨some p, jobs todo, results, sent⟩

/-- How many steps a thread can still spend on look-ups. -/
def pot (N : Nat) (t : Clerk) : Nat :=
  (match t.stage with
    | .look _ _ _ _ left => left.length
    | _ => 0) + t.todo.length * (N + 1)

end Sim

section Steps
variable {h0 : Handler} {provider : ι → String} {calls : ι → List (Ext × Call)} {K : String → Prop} {kf nf : ι → String}

theorem get?_handlerAt (L : Plan provider) (i : String) : Dict.get? (handlerAt h0 provider calls L).issuer2rp i =
    (Dict.get? h0.issuer2rp i).map (fun _ => ((deskOf h0 provider calls i).run (L i)).client) :=
  get?_mapKey (fun j _ => ((deskOf h0 provider calls j).run (L j)).client) _ _

theorem length_handlerAt (L : Plan provider) : (handlerAt h0 provider calls L).issuer2rp.length = (Dict.keys h0.issuer2rp).length := by
  simp [handlerAt, Dict.keys]

theorem keys_handlerAt (L : Plan provider) : Dict.keys (handlerAt h0 provider calls L).issuer2rp = Dict.keys h0.issuer2rp := by
  simp [handlerAt, Dict.keys, List.map_map, Function.comp_def]

theorem run_snoc {ι : Type} [DecidableEq ι] (d : Desk ι) (l : List ι) (u : ι) : d.run (l ++ [u]) = (d.run l).step u := by
  unfold Desk.run
  rw [List.foldl_append]
  rfl

/-- Everything that is assumed. -/
structure Setting (h0 : Handler) (provider : ι → String) (calls : ι → List (Ext × Call)) (K : String → Prop) (kf nf : ι → String) : Prop where
  keys : KeySpace K
  nodup : (Dict.keys h0.issuer2rp).Nodup
  shared : Shared h0
  known : ∀ i c, Dict.get? h0.issuer2rp i = some c → Known K c.db
  hk : ∀ u, K (kf u)
  distinct : ∀ u v, kf u = kf v → u = v
  nonces : ∀ u v, nf u = nf v → u = v
  ready : ∀ u, Ready h0 (provider u) (nf u) (kf u) (calls u)

namespace Setting

theorem client (S : Setting h0 provider calls K kf nf) (u : ι) : Dict.get? h0.issuer2rp (provider u) = some (client0 h0 (provider u)) := by
  obtain ⟨c, hc, _⟩ := (S.ready u).here
  unfold client0
  rw [hc]
  rfl

theorem linked (S : Setting h0 provider calls K kf nf) (i : String) (v : {v : ι // provider v = i}) :
    Linked K (client0 h0 i) (nf v.1) (kf v.1) ⟨none, jobs (calls v.1), [], []⟩ ⟨none, jobs (calls v.1), [], []⟩ (client0 h0 i) (client0 h0 i) := by
  obtain ⟨v, rfl⟩ := v
  obtain ⟨c, hc, _, h2, h3, h4⟩ := (S.ready v).here
  have e := S.client v
  rw [hc] at e
  injection e with e
  rw [← e]
  refine linked_ready S.keys (S.hk v) h2 h3 ?_
  rcases h4 with h4 | ⟨h4, _⟩
  · exact Or.inl h4
  · exact Or.inr h4

theorem keeps (S : Setting h0 provider calls K kf nf) (i : String) (l : List {v : ι // provider v = i}) :
    Like (client0 h0 i) ((deskOf h0 provider calls i).run l).client ∧ ∀ q, K q → (∀ v : {v : ι // provider v = i}, q ≠ kf v.1) →
      getState ((deskOf h0 provider calls i).run l).client.db q = getState (client0 h0 i).db q :=
  desk_keeps (kf := fun v : {v : ι // provider v = i} => kf v.1) (nf := fun v => nf v.1) S.keys (fun v => S.hk v.1)
    (fun u v e => Subtype.ext (S.distinct _ _ e)) (fun u v e => Subtype.ext (S.nonces _ _ e)) l (d := deskOf h0 provider calls i)
    ⟨rfl, rfl, rfl, rfl, rfl⟩ (fun v => S.linked i v)

/-- A look at another client. -/
theorem away (S : Setting h0 provider calls K kf nf) (u : ι) {i : String} (hi : i ∈ Dict.keys h0.issuer2rp) (hne : i ≠ provider u)
    (l : List {v : ι // provider v = i}) : getIss ((deskOf h0 provider calls i).run l).client.db (kf u) = .error .keyError := by
  have h1 : ∃ c, Dict.get? h0.issuer2rp i = some c := by
    obtain ⟨p, hp, e⟩ := List.mem_map.1 hi
    exact ⟨p.2, Dict.get?_of_mem_nodup S.nodup (by rw [← e]; exact hp)⟩
  obtain ⟨c, hc⟩ := h1
  have hcl : client0 h0 i = c := by unfold client0; rw [hc]; rfl
  have h2 := (S.keeps i l).2 (kf u) (S.hk u) fun v e => hne (by rw [← v.2, S.distinct _ _ e])
  have h3 := (S.ready u).away i c hc hne
  unfold getIss at h3 ⊢
  rw [h2, hcl]
  exact h3

/-- A look at the client that has the session. -/
theorem found (S : Setting h0 provider calls K kf nf) (u : ι) (l : List {v : ι // provider v = provider u}) {x : Ext} {c : Call}
    {rest : List (Ext × Job)}
    (hn : (((deskOf h0 provider calls (provider u)).run l).thread ⟨u, rfl⟩).now = none)
    (ht : (((deskOf h0 provider calls (provider u)).run l).thread ⟨u, rfl⟩).todo = (x, job c) :: rest) (hw : way c = .session (kf u) (job c)) :
    getIss ((deskOf h0 provider calls (provider u)).run l).client.db (kf u) = .ok (.str (provider u)) := by
  obtain ⟨made, m1, m2⟩ := between_calls (kf := fun v : {v : ι // provider v = provider u} => kf v.1) (nf := fun v => nf v.1) S.keys
    (client0 h0 (provider u)) (fun v => jobs (calls v.1)) (fun v => S.hk v.1) (fun u v e => Subtype.ext (S.distinct _ _ e))
    (fun u v e => Subtype.ext (S.nonces _ _ e)) (fun v => S.linked _ v) ⟨u, rfl⟩ l hn
  have ht' : (((Desk.start (client0 h0 (provider u)) fun v : {v : ι // provider v = provider u} => jobs (calls v.1)).run l).thread ⟨u, rfl⟩).todo =
    (x, job c) :: rest := ht
  rw [ht'] at m1
  simp only at m1 m2
  have hgoal : getIss (Spec.Desk.inTurn made (client0 h0 (provider u))).2.db (kf u) = .ok (.str (provider u)) := by
    obtain ⟨d, hd, h1, h2, _, h4⟩ := (S.ready u).here
    have hcl : client0 h0 (provider u) = d := by unfold client0; rw [hd]; rfl
    have hkn := S.known _ _ hd
    rw [hcl]
    rcases h4 with ⟨y, req, b, tail, g1, g2, _, _, _, _, _, _, _, g10, g11⟩ | ⟨h4, h5⟩
    · rw [g1] at m1
      cases made with
      | nil =>
        rw [List.nil_append] at m1
        injection m1 with m1 _
        injection m1 with _ m1
        exfalso
        revert hw m1
        cases c <;> simp [way, job]
      | cons p made =>
        rw [List.cons_append] at m1
        injection m1 with m0 m1
        subst m0
        obtain ⟨a1, a2⟩ := begin_kept S.keys (x := y) (g2 ▸ S.hk u) req b d h2 (by rw [h1]; exact (S.ready u).name) hkn g10
        obtain ⟨b1, b2⟩ := jobs_kept S.keys (S.hk u) made (fun xj hx => g11 xj (by rw [m1]; exact List.mem_append_left _ hx)) _ a1
        show getIss (Spec.Desk.inTurn made ((Job.begin req b).call y d).2).2.db (kf u) = _
        rw [b2, ← g2, a2, h1]
    · obtain ⟨b1, b2⟩ := jobs_kept S.keys (S.hk u) made (fun xj hx => h4.2 xj (by rw [m1]; exact List.mem_append_left _ hx)) _ hkn
      rw [b2, h5]
  unfold getIss at hgoal ⊢
  rw [show getState ((deskOf h0 provider calls (provider u)).run l).client.db (kf u) = _ from m2]
  exact hgoal

/-- A piece at a client, and what sharing makes of it. -/
theorem share_bump (S : Setting h0 provider calls K kf nf) (L : Plan provider) (u : ι) {d : Client}
    (hd : ((deskOf h0 provider calls (provider u)).run (bump provider L u (provider u))).client = d) :
    share d.cfg d.ctx.behaviour { handlerAt h0 provider calls L with
      issuer2rp := Dict.set (handlerAt h0 provider calls L).issuer2rp (provider u) d } = handlerAt h0 provider calls (bump provider L u) := by
  have hset : Dict.set (handlerAt h0 provider calls L).issuer2rp (provider u) d = (handlerAt h0 provider calls (bump provider L u)).issuer2rp := by
    refine set_mapKey (f := fun j _ => ((deskOf h0 provider calls j).run (L j)).client)
      (g := fun j _ => ((deskOf h0 provider calls j).run (bump provider L u j)).client) S.nodup ?_ (fun _ => hd) (fun j _ hj => ?_)
    · rw [Dict.has_eq, S.client u]; rfl
    · unfold bump
      rw [dif_neg (Ne.symm hj)]
  rw [hset]
  have hl := (S.keeps (provider u) (bump provider L u (provider u))).1
  rw [hd] at hl
  refine share_same fun cc hcc hb => ?_
  have h1 : Dict.get? cc.config "behaviour" = some (.obj (client0 h0 (provider u)).ctx.behaviour) :=
    S.shared _ _ cc (Dict.get?_eq_some_mem (S.client u)) (by rw [← hl.cfg]; exact hcc) hb
  rw [hl.ctx]
  refine ⟨h1, fun p hp e => ?_⟩
  have hp : p ∈ h0.issuer2rp.map (fun p => (p.1, ((deskOf h0 provider calls p.1).run (bump provider L u p.1)).client)) := hp
  obtain ⟨q, hq, rfl⟩ := List.mem_map.1 hp
  have hql := (S.keeps q.1 (bump provider L u q.1)).1
  have hqc : client0 h0 q.1 = q.2 := by
    unfold client0
    rw [Dict.get?_of_mem_nodup S.nodup (k := q.1) (v := q.2) hq]
    rfl
  rw [hqc] at hql
  show ((deskOf h0 provider calls q.1).run (bump provider L u q.1)).client.ctx.behaviour = _
  rw [hql.ctx]
  have h2 := S.shared q.1 q.2 cc hq (by
    have e : ((deskOf h0 provider calls q.1).run (bump provider L u q.1)).client.cfg = d.cfg := e
    rw [hql.cfg] at e
    rw [e]
    exact hcc) hb
  rw [h1] at h2
  injection h2 with h2
  injection h2 with h2
  exact h2.symm

end Setting

/-! ## A step -/

theorem handlerAt_same {L : Plan provider} {u : ι}
    (h : ((((deskOf h0 provider calls (provider u)).run (L (provider u))).thread ⟨u, rfl⟩).step
      ((deskOf h0 provider calls (provider u)).run (L (provider u))).client).2 = ((deskOf h0 provider calls (provider u)).run (L (provider u))).client) :
    handlerAt h0 provider calls (bump provider L u) = handlerAt h0 provider calls L := by
  unfold handlerAt
  congr 1
  refine List.map_congr_left fun p _ => ?_
  by_cases e : provider u = p.1
  · have : ∀ j (e : provider u = j), ((deskOf h0 provider calls j).run (bump provider L u j)).client = ((deskOf h0 provider calls j).run (L j)).client := by
      intro j e
      subst e
      unfold bump
      rw [dif_pos rfl, run_snoc]
      exact h
    rw [this _ e]
  · unfold bump
    rw [dif_neg e]

theorem count_any {α : Type} (b1 b2 : BEq α) [@LawfulBEq α b1] [@LawfulBEq α b2] (a : α) (l : List α) : @List.count α b1 a l = @List.count α b2 a l := by
  have : b1 = b2 := by
    cases b1 with
    | mk f1 =>
      cases b2 with
      | mk f2 =>
        congr 1
        funext x y
        have h1 := @beq_iff_eq α ⟨f1⟩ _ x y
        have h2 := @beq_iff_eq α ⟨f2⟩ _ x y
        have h : f1 x y = true ↔ f2 x y = true := h1.trans h2.symm
        exact Bool.eq_iff_iff.2 h
  subst this
  rfl

/-- What a step of a thread is to be. -/
def Goes (h0 : Handler) (provider : ι → String) (calls : ι → List (Ext × Call)) (kf : ι → String) (L : Plan provider) (u : ι) (t : Clerk) : Prop :=
  let C := ((deskOf h0 provider calls (provider u)).run (L (provider u))).client
  let T := ((deskOf h0 provider calls (provider u)).run (L (provider u))).thread ⟨u, rfl⟩
  let N := (Dict.keys h0.issuer2rp).length
  let r := t.step (handlerAt h0 provider calls L)
  (r.2 = handlerAt h0 provider calls (bump provider L u) ∧ Match (Dict.keys h0.issuer2rp) (provider u) (kf u) r.1 (T.step C).1 ∧ pot N r.1 ≤ pot N t) ∨
  (r.2 = handlerAt h0 provider calls L ∧ Match (Dict.keys h0.issuer2rp) (provider u) (kf u) r.1 T ∧ pot N r.1 + 1 ≤ pot N t)

theorem has_handlerAt (S : Setting h0 provider calls K kf nf) (L : Plan provider) (u : ι) :
    Dict.has (handlerAt h0 provider calls L).issuer2rp (provider u) = true := by
  rw [Dict.has_eq, get?_handlerAt, S.client u]
  rfl

theorem goes (S : Setting h0 provider calls K kf nf) (L : Plan provider) (u : ι) {t : Clerk}
    (hm : Match (Dict.keys h0.issuer2rp) (provider u) (kf u) t
      (((deskOf h0 provider calls (provider u)).run (L (provider u))).thread ⟨u, rfl⟩)) : Goes h0 provider calls kf L u t := by
  unfold Goes
  simp only
  have hsame := handlerAt_same (h0 := h0) (provider := provider) (calls := calls) (L := L) (u := u)
  have hfound := @Setting.found _ _ _ _ _ _ _ _ S u (L (provider u))
  have hshare := S.share_bump L u (d := ((((deskOf h0 provider calls (provider u)).run (L (provider u))).thread ⟨u, rfl⟩).step
      ((deskOf h0 provider calls (provider u)).run (L (provider u))).client).2) (by
        unfold bump
        rw [dif_pos rfl, run_snoc]
        rfl)
  generalize hT : ((deskOf h0 provider calls (provider u)).run (L (provider u))).thread ⟨u, rfl⟩ = T at hm hsame hfound hshare ⊢
  have hget : Dict.get? (handlerAt h0 provider calls L).issuer2rp (provider u) = some ((deskOf h0 provider calls (provider u)).run (L (provider u))).client := by
    rw [get?_handlerAt, S.client u]; rfl
  have hhas := has_handlerAt S L u
  generalize hC : ((deskOf h0 provider calls (provider u)).run (L (provider u))).client = C at hsame hfound hshare hget ⊢
  cases hm with
  | @idle todo results sent own =>
    cases todo with
    | nil => exact .inl ⟨(hsame rfl).symm, .idle own, Nat.le_refl _⟩
    | cons xc l =>
      obtain ⟨x, c⟩ := xc
      have hown := own (x, c) (List.mem_cons_self ..)
      have hown' : ∀ xc ∈ l, OwnCall (provider u) (kf u) xc.2 := fun y hy => own y (List.mem_cons_of_mem _ hy)
      have hpot : ∀ n, n ≤ (Dict.keys h0.issuer2rp).length → n + l.length * ((Dict.keys h0.issuer2rp).length + 1) + 1 ≤
          0 + (l.length + 1) * ((Dict.keys h0.issuer2rp).length + 1) := by
        intro n hn
        rw [Nat.add_mul]
        omega
      have hsetup : ∀ (r : Clerk × Handler), r = (⟨.work (provider u) ((job c).pieces x), l, results, sent⟩, handlerAt h0 provider calls L) →
          (r.2 = handlerAt h0 provider calls (bump provider L u) ∧ Match (Dict.keys h0.issuer2rp) (provider u) (kf u) r.1
            (Thread.step ⟨none, jobs ((x, c) :: l), results, sent⟩ C).1 ∧
            pot (Dict.keys h0.issuer2rp).length r.1 ≤ pot (Dict.keys h0.issuer2rp).length ⟨.idle, (x, c) :: l, results, sent⟩) := by
        rintro r rfl
        refine ⟨(hsame rfl).symm, .work hown', ?_⟩
        have := hpot 0 (Nat.zero_le _)
        exact Nat.le_trans (Nat.le_succ _) this
      have hlook : way c = .session (kf u) (job c) → ∀ (r : Clerk × Handler),
          r = (⟨.look x (job c) (kf u) (handlerAt h0 provider calls L).issuer2rp.length (Dict.keys (handlerAt h0 provider calls L).issuer2rp), l, results, sent⟩,
            handlerAt h0 provider calls L) →
          (r.2 = handlerAt h0 provider calls L ∧ Match (Dict.keys h0.issuer2rp) (provider u) (kf u) r.1 ⟨none, jobs ((x, c) :: l), results, sent⟩ ∧
            pot (Dict.keys h0.issuer2rp).length r.1 + 1 ≤ pot (Dict.keys h0.issuer2rp).length ⟨.idle, (x, c) :: l, results, sent⟩) := by
        rintro hw r rfl
        rw [length_handlerAt, keys_handlerAt]
        refine ⟨rfl, .look ?_ (fun _ h => h) hw hown', hpot _ (Nat.le_refl _)⟩
        exact List.mem_map_of_mem (f := Prod.fst) (Dict.get?_eq_some_mem (S.client u))
      cases c with
      | begin j us r b =>
        have hown : j = provider u := hown
        subst hown
        refine .inl (hsetup _ ?_)
        simp only [Clerk.step]
        have hcs : clientSetup x (provider u) us b (handlerAt h0 provider calls L) = (.ok (provider u), handlerAt h0 provider calls L) := by
          unfold clientSetup
          rw [if_neg (fun h => (S.ready u).name h.1), if_neg (S.ready u).name, Py.read_bind_run, if_pos hhas]
          rfl
        unfold Clerk.call
        simp only [way, hcs]
        rfl
      | finalize j r b =>
        have hown : j = provider u := hown
        subst hown
        refine .inl (hsetup _ ?_)
        simp only [Clerk.step]
        unfold Clerk.call
        simp only [way, hhas, if_true]
        rfl
      | getTokens s => obtain rfl : s = kf u := hown; exact .inr (hlook rfl _ rfl)
      | refresh s sc => obtain rfl : s = kf u := hown; exact .inr (hlook rfl _ rfl)
      | userInfo s tk => obtain rfl : s = kf u := hown; exact .inr (hlook rfl _ rfl)
      | hasActive s => obtain rfl : s = kf u := hown; exact .inr (hlook rfl _ rfl)
      | validToken s => obtain rfl : s = kf u := hown; exact .inr (hlook rfl _ rfl)
      | logout s us => obtain rfl : s = kf u := hown; exact .inr (hlook rfl _ rfl)
      | close s j us =>
        have hown : s = kf u ∧ (j = provider u ∨ j = "") := hown
        obtain ⟨e1, e2⟩ := hown
        subst e1
        by_cases e : j = ""
        · have hw : way (.close (kf u) j us) = .session (kf u) (job (.close (kf u) j us)) := by
            simp only [way, if_pos e]
            rfl
          refine .inr (hlook hw _ ?_)
          simp only [Clerk.step]
          unfold Clerk.call
          rw [hw]
        · have e2 : j = provider u := e2.resolve_right e
          subst e2
          refine .inl (hsetup _ ?_)
          simp only [Clerk.step]
          unfold Clerk.call
          simp only [way, if_neg e, hhas, if_true]
          rfl
      | clear s => exact hown.elim
      | backchannel j i => exact hown.elim
  | @look x c left todo results sent hi hsub hw own =>
    have hf : getIss C.db (kf u) = .ok (.str (provider u)) := @hfound x c (jobs todo) rfl rfl hw
    show (_ ∧ _ ∧ _) ∨ _
    simp only [Clerk.step]
    cases left with
    | nil => cases hi
    | cons j rest =>
      by_cases e : j = provider u
      · subst e
        refine .inl ?_
        have hv : Clerk.visit ⟨.look x (job c) (kf u) (Dict.keys h0.issuer2rp).length (provider u :: rest), todo, results, sent⟩ x (job c) (kf u)
            (Dict.keys h0.issuer2rp).length (provider u :: rest) (handlerAt h0 provider calls L) =
            ⟨.work (provider u) ((job c).pieces x), todo, results, sent⟩ := by
          unfold Clerk.visit
          rw [if_neg (by rw [length_handlerAt]; simp)]
          simp only [hget, hf]
          rw [if_pos (by simp [Val.truthy, (S.ready u).name])]
          unfold Clerk.goto
          simp only [hhas, if_true]
        rw [hv]
        refine ⟨(hsame rfl).symm, .work own, ?_⟩
        unfold pot
        simp only
        omega
      · refine .inr ?_
        have hj : j ∈ Dict.keys h0.issuer2rp := hsub j (List.mem_cons_self ..)
        have ha := S.away u hj e (L j)
        have hgj : Dict.get? (handlerAt h0 provider calls L).issuer2rp j = some ((deskOf h0 provider calls j).run (L j)).client := by
          rw [get?_handlerAt]
          obtain ⟨p, hp, e⟩ := List.mem_map.1 hj
          rw [Dict.get?_of_mem_nodup S.nodup (k := j) (v := p.2) (by rw [← e]; exact hp)]
          rfl
        have hv : Clerk.visit ⟨.look x (job c) (kf u) (Dict.keys h0.issuer2rp).length (j :: rest), todo, results, sent⟩ x (job c) (kf u)
            (Dict.keys h0.issuer2rp).length (j :: rest) (handlerAt h0 provider calls L) =
            ⟨.look x (job c) (kf u) (Dict.keys h0.issuer2rp).length rest, todo, results, sent⟩ := by
          unfold Clerk.visit
          rw [if_neg (by rw [length_handlerAt]; simp)]
          simp only [hgj, ha]
        rw [hv]
        refine ⟨trivial, .look ?_ (fun q hq => hsub q (List.mem_cons_of_mem _ hq)) hw own, ?_⟩
        · rcases List.mem_cons.1 hi with h | h
          · exact absurd h.symm e
          · exact h
        · unfold pot
          simp only [List.length_cons]
          omega
  | @work p todo results sent own =>
    cases p with
    | done r => exact .inl ⟨(hsame rfl).symm, .idle own, Nat.le_refl _⟩
    | piece m next =>
      refine .inl ?_
      have hv : Clerk.step ⟨.work (provider u) (.piece m next), todo, results, sent⟩ (handlerAt h0 provider calls L) =
          (⟨.work (provider u) (Pieces.step (.piece m next) C).1, todo, results, sent ++ (Pieces.step (.piece m next) C).2.log.drop C.log.length⟩,
            handlerAt h0 provider calls (bump provider L u)) := by
        simp only [Clerk.step, Clerk.piece, hget]
        rw [← hshare]
        rfl
      rw [hv]
      exact ⟨rfl, .work own, Nat.le_refl _⟩

theorem sim_step (S : Setting h0 provider calls K kf nf) {o : Office ι} {L : Plan provider} (hh : o.handler = handlerAt h0 provider calls L)
    (hm : ∀ v, Match (Dict.keys h0.issuer2rp) (provider v) (kf v) (o.clerk v)
      (((deskOf h0 provider calls (provider v)).run (L (provider v))).thread ⟨v, rfl⟩)) (u : ι) :
    ∃ L' : Plan provider, (o.step u).handler = handlerAt h0 provider calls L' ∧
      (∀ v, Match (Dict.keys h0.issuer2rp) (provider v) (kf v) ((o.step u).clerk v)
        (((deskOf h0 provider calls (provider v)).run (L' (provider v))).thread ⟨v, rfl⟩)) ∧
      ∀ v, (if u = v then 1 else 0) + pot (Dict.keys h0.issuer2rp).length ((o.step u).clerk v) + (L (provider v)).count ⟨v, rfl⟩ ≤
        (L' (provider v)).count ⟨v, rfl⟩ + pot (Dict.keys h0.issuer2rp).length (o.clerk v) := by
  have hclerk : ∀ v, v ≠ u → (o.step u).clerk v = o.clerk v := fun v h => by simp [Office.step, h]
  have hclerk' : (o.step u).clerk u = ((o.clerk u).step o.handler).1 := by simp [Office.step]
  have hg := goes S L u (hm u)
  unfold Goes at hg
  simp only at hg
  rw [← hh] at hg
  rcases hg with ⟨g1, g2, g3⟩ | ⟨g1, g2, g3⟩
  · refine ⟨bump provider L u, g1, fun v => ?_, fun v => ?_⟩
    · by_cases e : v = u
      · subst e
        rw [hclerk']
        unfold bump
        rw [dif_pos rfl, run_snoc]
        simpa [Desk.step] using g2
      · rw [hclerk v e]
        have hv := hm v
        unfold bump
        split
        · next e' =>
          rw [run_snoc]
          have : (⟨v, rfl⟩ : {w : ι // provider w = provider v}) ≠ ⟨u, e'⟩ := fun h => e (congrArg Subtype.val h)
          simpa [Desk.step, this] using hv
        · exact hv
    · by_cases e : v = u
      · subst e
        rw [hclerk']
        unfold bump
        rw [dif_pos rfl, List.count_append]
        simp only [if_true, List.count_singleton_self]
        omega
      · rw [hclerk v e, if_neg (Ne.symm e)]
        have : (L (provider v)).count ⟨v, rfl⟩ ≤ (bump provider L u (provider v)).count ⟨v, rfl⟩ := by
          unfold bump
          split
          · rw [List.count_append]; omega
          · exact Nat.le_refl _
        omega
  · refine ⟨L, g1.trans hh, fun v => ?_, fun v => ?_⟩
    · by_cases e : v = u
      · subst e; rw [hclerk']; exact g2
      · rw [hclerk v e]; exact hm v
    · by_cases e : v = u
      · subst e
        rw [hclerk', if_pos rfl]
        omega
      · rw [hclerk v e, if_neg (Ne.symm e)]
        omega

theorem sim_run (S : Setting h0 provider calls K kf nf) : ∀ (l : List ι) {o : Office ι} {L : Plan provider}, o.handler = handlerAt h0 provider calls L →
    (∀ v, Match (Dict.keys h0.issuer2rp) (provider v) (kf v) (o.clerk v)
      (((deskOf h0 provider calls (provider v)).run (L (provider v))).thread ⟨v, rfl⟩)) →
    ∃ L' : Plan provider, (o.run l).handler = handlerAt h0 provider calls L' ∧
      (∀ v, Match (Dict.keys h0.issuer2rp) (provider v) (kf v) ((o.run l).clerk v)
        (((deskOf h0 provider calls (provider v)).run (L' (provider v))).thread ⟨v, rfl⟩)) ∧
      ∀ v, l.count v + (L (provider v)).count ⟨v, rfl⟩ ≤
        (L' (provider v)).count ⟨v, rfl⟩ + pot (Dict.keys h0.issuer2rp).length (o.clerk v) := by
  intro l
  have key : ∀ (l : List ι) {o : Office ι} {L : Plan provider}, o.handler = handlerAt h0 provider calls L →
    (∀ v, Match (Dict.keys h0.issuer2rp) (provider v) (kf v) (o.clerk v)
      (((deskOf h0 provider calls (provider v)).run (L (provider v))).thread ⟨v, rfl⟩)) →
    ∃ L' : Plan provider, (o.run l).handler = handlerAt h0 provider calls L' ∧
      (∀ v, Match (Dict.keys h0.issuer2rp) (provider v) (kf v) ((o.run l).clerk v)
        (((deskOf h0 provider calls (provider v)).run (L' (provider v))).thread ⟨v, rfl⟩)) ∧
      ∀ v, l.count v + pot (Dict.keys h0.issuer2rp).length ((o.run l).clerk v) + (L (provider v)).count ⟨v, rfl⟩ ≤
        (L' (provider v)).count ⟨v, rfl⟩ + pot (Dict.keys h0.issuer2rp).length (o.clerk v) := by
    intro l
    induction l with
    | nil => intro o L hh hm; exact ⟨L, hh, hm, fun v => by show List.count v [] + _ + _ ≤ _; simp [Office.run]; omega⟩
    | cons w l ih =>
      intro o L hh hm
      obtain ⟨L1, a1, a2, a3⟩ := sim_step S hh hm w
      obtain ⟨L2, b1, b2, b3⟩ := ih a1 a2
      refine ⟨L2, b1, b2, fun v => ?_⟩
      have c1 := a3 v
      have c2 := b3 v
      rw [List.count_cons]
      have : (if (w == v) = true then 1 else 0) = (if w = v then 1 else 0 : Nat) := by simp
      rw [this]
      show _ + pot _ (((o.step w).run l).clerk v) + _ ≤ _
      omega
  intro o L hh hm
  obtain ⟨L', a1, a2, a3⟩ := key l hh hm
  exact ⟨L', a1, a2, fun v => by have := a3 v; omega⟩

theorem Match.finished {names : List String} {i k : String} {t : Clerk} {T : Thread} (h : Match names i k t T) : t.finished ↔ T.finished := by
  unfold Clerk.finished Thread.finished
  cases h with
  | @idle todo _ _ _ => simp [jobs]
  | look => simp
  | work => simp

theorem Match.results {names : List String} {i k : String} {t : Clerk} {T : Thread} (h : Match names i k t T) : t.results = T.results ∧ t.sent = T.sent := by
  cases h <;> exact ⟨rfl, rfl⟩

/-- The threads at the handler are as at the clients, each alone. -/
theorem as_at_clients (S : Setting h0 provider calls K kf nf) (u : ι) :
    (∃ N, ∀ l : List ι, N ≤ l.count u → (((Office.start h0 calls).run l).clerk u).finished) ∧
    ∀ l : List ι, (((Office.start h0 calls).run l).clerk u).finished →
      SameResults (((Office.start h0 calls).run l).clerk u).results (Spec.Desk.inTurn (jobs (calls u)) (client0 h0 (provider u))).1 ∧
      (client0 h0 (provider u)).log ++ (((Office.start h0 calls).run l).clerk u).sent =
        (Spec.Desk.inTurn (jobs (calls u)) (client0 h0 (provider u))).2.log ∧
      ∃ d, Dict.get? ((Office.start h0 calls).run l).handler.issuer2rp (provider u) = some d ∧
        getState d.db (kf u) = getState (Spec.Desk.inTurn (jobs (calls u)) (client0 h0 (provider u))).2.db (kf u) := by
  have hstart : (Office.start h0 calls).handler = handlerAt h0 provider calls (fun _ => []) := by
    show h0 = _
    unfold handlerAt
    have : h0.issuer2rp.map (fun p => (p.1, ((deskOf h0 provider calls p.1).run []).client)) = h0.issuer2rp := by
      conv => rhs; rw [← List.map_id h0.issuer2rp]
      refine List.map_congr_left fun p hp => ?_
      show (p.1, client0 h0 p.1) = p
      unfold client0
      rw [Dict.get?_of_mem_nodup S.nodup (k := p.1) (v := p.2) hp]
      rfl
    rw [this]
  have hm0 : ∀ v, Match (Dict.keys h0.issuer2rp) (provider v) (kf v) ((Office.start h0 calls).clerk v)
      (((deskOf h0 provider calls (provider v)).run []).thread ⟨v, rfl⟩) := fun v => .idle (S.ready v).own
  have hsim := fun l => sim_run S l (L := fun _ => []) hstart hm0
  obtain ⟨⟨N, hN⟩, hfin⟩ := as_if_alone (kf := fun v : {v : ι // provider v = provider u} => kf v.1) (nf := fun v => nf v.1) S.keys
    (client0 h0 (provider u)) (fun v => jobs (calls v.1)) (fun v => S.hk v.1) (fun u v e => Subtype.ext (S.distinct _ _ e))
    (fun u v e => Subtype.ext (S.nonces _ _ e)) (fun v => S.linked _ v) ⟨u, rfl⟩
  refine ⟨⟨N + pot (Dict.keys h0.issuer2rp).length ((Office.start h0 calls).clerk u), fun l hl => ?_⟩, fun l hf => ?_⟩
  · obtain ⟨L, _, a2, a3⟩ := hsim l
    refine (a2 u).finished.2 (hN (L (provider u)) ?_)
    have := a3 u
    simp only [List.count_nil] at this
    have hle : N ≤ (L (provider u)).count ⟨u, rfl⟩ := by omega
    refine Nat.le_trans hle (Nat.le_of_eq ?_)
    exact @count_any _ _ _ _ _ _ _
  · obtain ⟨L, a1, a2, _⟩ := hsim l
    obtain ⟨b1, b2, b3⟩ := hfin (L (provider u)) ((a2 u).finished.1 hf)
    obtain ⟨r1, r2⟩ := (a2 u).results
    rw [r1, r2]
    refine ⟨b1, b2, _, ?_, b3⟩
    rw [a1, get?_handlerAt, S.client u]
    rfl

end Steps

/-! ## The calls, alone -/

section Alone
variable {h0 : Handler} {i k n : String} {c0 : Client} {K : String → Prop}

/-- The handler with another client for a provider. -/
def put (h0 : Handler) (i : String) (c : Client) : Handler := { h0 with issuer2rp := Dict.set h0.issuer2rp i c }

theorem onClient_put {α : Type} (hnd : (Dict.keys h0.issuer2rp).Nodup) (hsh : Shared h0) (h0c : Dict.get? h0.issuer2rp i = some c0) {c : Client}
    {m : Py Client α} (hl : Like c0 (m c).2) : onClient i m (put h0 i c) = ((m c).1, put h0 i (m c).2) := by
  have hg : Dict.get? (put h0 i c).issuer2rp i = some c := Dict.get?_set_self ..
  unfold onClient
  rw [hg]
  show ((m c).1, share (m c).2.cfg (m c).2.ctx.behaviour { h0 with issuer2rp := Dict.set (Dict.set h0.issuer2rp i c) i (m c).2 }) = _
  rw [Dict.set_set]
  congr 1
  refine share_same fun cc hcc hb => ?_
  have h1 : Dict.get? cc.config "behaviour" = some (.obj c0.ctx.behaviour) :=
    hsh i c0 cc (Dict.get?_eq_some_mem h0c) (by rw [← hl.cfg]; exact hcc) hb
  rw [hl.ctx]
  refine ⟨h1, fun p hp e => ?_⟩
  have hp' : Dict.get? (Dict.set h0.issuer2rp i (m c).2) p.1 = some p.2 := Dict.get?_of_mem_nodup (Dict.nodup_set hnd _ _) hp
  rw [Dict.get?_set] at hp'
  split at hp'
  · injection hp' with hp'
    rw [← hp', hl.ctx]
  · have h2 := hsh p.1 p.2 cc (Dict.get?_eq_some_mem hp') (by rw [e]; exact hcc) hb
    rw [h1] at h2
    injection h2 with h2
    injection h2 with h2
    exact h2.symm

theorem session_put (hnd : (Dict.keys h0.issuer2rp).Nodup) (hne : i ≠ "")
    (haway : ∀ j c, Dict.get? h0.issuer2rp j = some c → j ≠ i → getIss c.db k = .error .keyError) {c : Client}
    (hc : getIss c.db k = .ok (.str i)) : sessionIssuer (put h0 i c) k = .ok i := by
  have hnd' : (Dict.keys (put h0 i c).issuer2rp).Nodup := Dict.nodup_set hnd _ _
  have hnds : (Dict.keys (stores (put h0 i c))).Nodup := by
    have : Dict.keys (stores (put h0 i c)) = Dict.keys (put h0 i c).issuer2rp := by
      simp [stores, Dict.keys, List.map_map, Function.comp_def]
    rw [this]; exact hnd'
  have d1 : Dict.get? (stores (put h0 i c)) i = some c.db := by
    rw [get?_stores, show Dict.get? (put h0 i c).issuer2rp i = some c from Dict.get?_set_self ..]; rfl
  rw [sessionIssuer_stores]
  have hf : findIn k (stores (put h0 i c)) = .ok (some (.str i)) := by
    refine findIn_one (by simp [Val.truthy, hne]) hc (Dict.get?_eq_some_mem d1) fun pr hpr hne' => ?_
    have hg := Dict.get?_of_mem_nodup hnds hpr
    by_cases e : pr.1 = i
    · obtain ⟨a, b⟩ := pr
      simp only at e hg
      subst e
      rw [d1] at hg
      injection hg with hg
      exact absurd (by rw [hg]) hne'
    · rw [get?_stores] at hg
      have : Dict.get? (put h0 i c).issuer2rp pr.1 = Dict.get? h0.issuer2rp pr.1 := Dict.get?_set_ne _ _ (Ne.symm e)
      rw [this] at hg
      cases hx : Dict.get? h0.issuer2rp pr.1 with
      | none => rw [hx] at hg; cases hg
      | some d =>
        rw [hx] at hg
        injection hg with hg
        rw [← hg]
        exact haway pr.1 d hx e
  rw [hf]
  simp only
  rw [if_pos]
  rw [Dict.has_eq, d1]
  rfl

theorem exec_put (hnd : (Dict.keys h0.issuer2rp).Nodup) (hsh : Shared h0) (hne : i ≠ "") (h0c : Dict.get? h0.issuer2rp i = some c0)
    (haway : ∀ j c, Dict.get? h0.issuer2rp j = some c → j ≠ i → getIss c.db k = .error .keyError) {c : Client} {x : Ext} {call : Call}
    (hown : OwnCall i k call) (hc : way call = .session k (job call) → getIss c.db k = .ok (.str i)) (hl : Like c0 ((job call).call x c).2) :
    exec x call (put h0 i c) = (((job call).call x c).1, put h0 i ((job call).call x c).2) := by
  rw [← onClient_put hnd hsh h0c hl]
  have hcalls := Props.C124_calls x (put h0 i c) i
  have hses : getIss c.db k = .ok (.str i) → sessionIssuer (put h0 i c) k = .ok i := session_put hnd hne haway
  cases call with
  | begin j us r b =>
    obtain rfl : j = i := hown
    refine Props.C125_begin x _ _ _ _ _ _ _ ?_
    unfold clientSetup
    rw [if_neg (fun h => hne h.1), if_neg hne, Py.read_bind_run, if_pos (by
      rw [Dict.has_eq, show Dict.get? (put h0 j c).issuer2rp j = some c from Dict.get?_set_self ..]; rfl)]
    rfl
  | finalize j r b => obtain rfl : j = i := hown; exact hcalls.1 r b
  | getTokens s => obtain rfl : s = k := hown; exact (hcalls.2 s (hses (hc rfl))).1
  | refresh s sc => obtain rfl : s = k := hown; exact (hcalls.2 s (hses (hc rfl))).2.1 sc
  | userInfo s tk => obtain rfl : s = k := hown; exact (hcalls.2 s (hses (hc rfl))).2.2.1 tk
  | hasActive s => obtain rfl : s = k := hown; exact (hcalls.2 s (hses (hc rfl))).2.2.2.1
  | validToken s => obtain rfl : s = k := hown; exact (hcalls.2 s (hses (hc rfl))).2.2.2.2.1
  | logout s us => obtain rfl : s = k := hown; exact (hcalls.2 s (hses (hc rfl))).2.2.2.2.2 us
  | close s j us =>
    obtain ⟨e1, e2⟩ : s = k ∧ (j = i ∨ j = "") := hown
    subst e1
    have hlog : ∀ g, exec x (.close s j us) g = ret .req (if j ≠ "" then onClient j (logout x s us) else onSession s (logout x s us)) g := fun _ => rfl
    by_cases e : j = ""
    · have hw : way (.close s j us) = .session s (job (.close s j us)) := by
        simp only [way, if_pos e]
        rfl
      rw [hlog, if_neg (by simp [e])]
      exact (hcalls.2 s (hses (hc hw))).2.2.2.2.2 us
    · have e2 : j = i := e2.resolve_right e
      subst e2
      rw [hlog, if_pos e]
      unfold ret onClient
      rw [show Dict.get? (put h0 j c).issuer2rp j = some c from Dict.get?_set_self ..]
      simp only
      show _ = (((logout x s us >>= fun a => (pure (Ret.req a) : Py Client Ret)) c).1, _)
      rw [Py.bind_run]
      show (Except.map Ret.req (logout x s us c).1, _) = _
      have hcall : (job (.close s j us)).call x = (logout x s us >>= fun a => (pure (Ret.req a) : Py Client Ret)) := rfl
      rw [hcall, Py.bind_run]
      rcases logout x s us c with ⟨q, d⟩
      cases q <;> rfl
  | clear s => exact hown.elim
  | backchannel j info => exact hown.elim

/-- Calls for a session that is there. -/
theorem inTurn_put (hK : KeySpace K) (hk : K k) (hnd : (Dict.keys h0.issuer2rp).Nodup) (hsh : Shared h0) (hne : i ≠ "")
    (h0c : Dict.get? h0.issuer2rp i = some c0)
    (haway : ∀ j c, Dict.get? h0.issuer2rp j = some c → j ≠ i → getIss c.db k = .error .keyError) :
    ∀ (l : List (Ext × Call)) {c : Client}, (∀ xc ∈ l, OwnCall i k xc.2) → (∀ xj ∈ jobs l, OwnJob k xj) → TwinK c0 n k c c → Known K c.db →
      getIss c.db k = .ok (.str i) →
      inTurn l (put h0 i c) = ((Spec.Desk.inTurn (jobs l) c).1, put h0 i (Spec.Desk.inTurn (jobs l) c).2) := by
  intro l
  induction l with
  | nil => intro c _ _ _ _ _; rfl
  | cons xc l ih =>
    intro c ho hj hw hkn hiss
    obtain ⟨x, call⟩ := xc
    have hj0 : OwnJob k (x, job call) := hj _ (List.mem_cons_self ..)
    have hw' := twin_call hK hk hj0 hw
    obtain ⟨a1, a2⟩ := job_kept hK hk hj0 c hkn
    have he := exec_put (x := x) hnd hsh hne h0c haway (ho (x, call) (List.mem_cons_self ..)) (fun _ => hiss) hw'.like
    show ((exec x call (put h0 i c)).1 :: (inTurn l (exec x call (put h0 i c)).2).1, (inTurn l (exec x call (put h0 i c)).2).2) = _
    rw [he]
    simp only
    rw [ih (fun y hy => ho y (List.mem_cons_of_mem _ hy)) (fun y hy => hj y (List.mem_cons_of_mem _ hy)) hw' a1 (a2.trans hiss)]
    rfl

/-- The calls of a thread, alone. -/
theorem inTurn_alone (hK : KeySpace K) (hk : K k) (hnd : (Dict.keys h0.issuer2rp).Nodup) (hsh : Shared h0)
    (hkn : ∀ j c, Dict.get? h0.issuer2rp j = some c → Known K c.db) {l : List (Ext × Call)} (hr : Ready h0 i n k l)
    (h0c : Dict.get? h0.issuer2rp i = some c0) :
    inTurn l h0 = ((Spec.Desk.inTurn (jobs l) c0).1, put h0 i (Spec.Desk.inTurn (jobs l) c0).2) := by
  obtain ⟨c, hc, h1, h2, h3, h4⟩ := hr.here
  rw [h0c] at hc
  injection hc with hc
  subst hc
  have hput : put h0 i c0 = h0 := by
    unfold put
    rw [set_same h0c]
  have hlike : Like c0 c0 := ⟨rfl, rfl, rfl, rfl, rfl⟩
  conv => lhs; rw [← hput]
  rcases h4 with ⟨x, req, b, rest, g1, g2, g3, g4, g5, g6, g7, g8, g9, g10, g11⟩ | ⟨⟨h4, h5⟩, h6⟩
  · cases l with
    | nil => cases g1
    | cons xc l =>
      obtain ⟨y, call⟩ := xc
      injection g1 with e1 e2
      injection e1 with e0 e1
      have e0 : y = x := e0
      subst e0
      have e2 : jobs l = rest := e2
      subst e2
      obtain ⟨args, ha⟩ := Props.initArgs_of_ok g10
      have hop := opening_begin (κ := c0) hK (x := y) (g2 ▸ hk) (g3 ▸ g4) g5 req b ha ⟨g7, g8⟩ h2 (Props.aliasScope_settled g9)
      have hop' := Props.opening_login hop
      rw [g2, g3] at hop'
      have hu : Unused k c0.db := ⟨⟨g6.nameless, fun v hv => g6.nonce v hv⟩, g6.refs⟩
      have hw := twin_opening hop' ⟨hlike, hlike, h3, hu, hu, rfl⟩
      obtain ⟨a1, a2⟩ := begin_kept hK (x := y) (g2 ▸ hk) req b c0 h2 (by rw [h1]; exact hr.name) (hkn i c0 h0c) g10
      rw [g2, h1] at a2
      have e1 : job call = .begin req b := e1
      rw [← e1] at hw a1 a2
      have he := exec_put (x := y) (c := c0) hnd hsh hr.name h0c hr.away (hr.own (y, call) (List.mem_cons_self ..)) (fun hway => by
        exfalso
        revert hway e1
        cases call <;> simp [way, job]) hw.like
      show ((exec y call (put h0 i c0)).1 :: (inTurn l (exec y call (put h0 i c0)).2).1, (inTurn l (exec y call (put h0 i c0)).2).2) = _
      rw [he]
      simp only
      rw [inTurn_put hK hk hnd hsh hr.name h0c hr.away l (fun z hz => hr.own z (List.mem_cons_of_mem _ hz)) g11 hw a1 a2]
      rfl
  · exact inTurn_put (n := n) hK hk hnd hsh hr.name h0c hr.away l hr.own h5 ⟨⟨rfl, rfl, rfl, rfl, fun hd => ⟨h3 hd, rfl⟩, rfl, h4, h4⟩, hlike, hlike⟩
      (hkn i c0 h0c) h6

end Alone

end Verif.Office

namespace Verif.Props
open Verif Verif.Service Verif.Handler Verif.Desk Verif.Office Verif.StateInterface Verif.Spec.Desk Verif.Spec.Office
open Verif.Spec.Store (KeySpace)

/-- **C126.**  Any number of threads with one handler that has clients for any number of providers.  Each makes calls for a provider
whose client is there: a whole login, from `begin` on, or calls for a session in flight or running; sessions and nonces are
distinct.  However the steps of the calls are interleaved, look-ups of sessions included: a thread that comes to its turn often
enough has made its calls, and then each has returned or raised what it does when the thread makes them alone, one after the
other, each as a whole; at the client of its provider, the same requests were sent and the record of the session is the same. -/
theorem C126_as_if_alone_partial {ι : Type} [DecidableEq ι] {K : String → Prop} (hK : KeySpace K) (h : Handler)
    (provider session nonce : ι → String) (calls : ι → List (Ext × Call))
    (hnames : (Dict.keys h.issuer2rp).Nodup) (hshared : Shared h) (hknown : ∀ i c, Dict.get? h.issuer2rp i = some c → Known K c.db)
    (hkeys : ∀ u, K (session u)) (hdistinct : ∀ u v, session u = session v → u = v) (hnonces : ∀ u v, nonce u = nonce v → u = v)
    (hready : ∀ u, Ready h (provider u) (nonce u) (session u) (calls u)) (u : ι) :
    (∃ N, ∀ l : List ι, N ≤ l.count u → (((Office.start h calls).run l).clerk u).finished) ∧
    ∀ l : List ι, (((Office.start h calls).run l).clerk u).finished →
      SameResults (((Office.start h calls).run l).clerk u).results (Spec.Office.inTurn (calls u) h).1 ∧
      ∃ before during alone, Dict.get? h.issuer2rp (provider u) = some before ∧
        Dict.get? ((Office.start h calls).run l).handler.issuer2rp (provider u) = some during ∧
        Dict.get? (Spec.Office.inTurn (calls u) h).2.issuer2rp (provider u) = some alone ∧
        before.log ++ (((Office.start h calls).run l).clerk u).sent = alone.log ∧
        getState during.db (session u) = getState alone.db (session u) := by
  have S : Setting h provider calls K session nonce := ⟨hK, hnames, hshared, hknown, hkeys, hdistinct, hnonces, hready⟩
  obtain ⟨t1, t2⟩ := as_at_clients S u
  have ha := inTurn_alone hK (hkeys u) hnames hshared hknown (hready u) (S.client u)
  refine ⟨t1, fun l hf => ?_⟩
  obtain ⟨a1, a2, d, a3, a4⟩ := t2 l hf
  rw [ha]
  refine ⟨a1, _, d, (Spec.Desk.inTurn (jobs (calls u)) (client0 h (provider u))).2, S.client u, a3, Dict.get?_set_self .., a2, a4⟩

end Verif.Props
