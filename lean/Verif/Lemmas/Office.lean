import Verif.Props.Desk
import Verif.Props.InFlight
import Verif.Model.Office
/-!
# Threads at one client: what the other clients and the look-ups see
-/

namespace Verif.Desk
open Verif Verif.Service Verif.Handler Verif.StateInterface Pieces
open Verif.Spec.Store (KeySpace)
open Verif.Spec.Desk

variable {ι : Type} [DecidableEq ι] {K : String → Prop} {κ : Client} {n k : String}

theorem linked_step (hK : KeySpace K) {kf nf : ι → String} (hk : ∀ u, K (kf u)) (hne : ∀ u v, kf u = kf v → u = v)
    (hnn : ∀ u v, nf u = nf v → u = v) {d : Desk ι} (hg : ∀ v, Linked K κ (nf v) (kf v) (d.thread v) (d.thread v) d.client d.client) (v : ι) :
    (∀ w, Linked K κ (nf w) (kf w) ((d.step v).thread w) ((d.step v).thread w) (d.step v).client (d.step v).client) ∧
      Beside K (nf v) (kf v) d.client (d.step v).client := by
  obtain ⟨s1, s2⟩ := (hg v).step hK (hk v)
  refine ⟨fun w => ?_, s2⟩
  by_cases h : w = v
  · subst h; simpa [Desk.step] using s1
  · have := (hg w).beside (hk w) (fun e => h (hne w v e)) (fun e => h (hnn w v e)) s2 s2
    simpa [Desk.step, h] using this

/-- What a desk keeps, whatever the schedule. -/
theorem desk_keeps (hK : KeySpace K) {kf nf : ι → String} (hk : ∀ u, K (kf u)) (hne : ∀ u v, kf u = kf v → u = v)
    (hnn : ∀ u v, nf u = nf v → u = v) : ∀ (l : List ι) {d : Desk ι}, Like κ d.client →
    (∀ v, Linked K κ (nf v) (kf v) (d.thread v) (d.thread v) d.client d.client) →
    Like κ (d.run l).client ∧ ∀ q, K q → (∀ v, q ≠ kf v) → getState (d.run l).client.db q = getState d.client.db q := by
  intro l
  induction l with
  | nil => intro d hl _; exact ⟨hl, fun _ _ _ => rfl⟩
  | cons v l ih =>
    intro d hl hg
    obtain ⟨h1, h2⟩ := linked_step hK hk hne hnn hg v
    obtain ⟨i1, i2⟩ := ih (hl.beside h2) h1
    exact ⟨i1, fun q hq hv => (i2 q hq hv).trans (h2.record (hk v) q hq (hv v))⟩

theorem whole_step (p : Pieces Ret) (c : Client) : (p.step c).1.whole (p.step c).2 = p.whole c := by
  cases p with
  | done r => rfl
  | piece m next =>
    show _ = (m >>= fun b => (next b).whole) c
    rcases hm : m c with ⟨q, d⟩
    cases q with
    | error e => rw [step_error hm, Py.bind_error hm]; rfl
    | ok b => rw [step_ok hm, Py.bind_ok hm]

/-- Alone, in the middle of a call or after it. -/
theorem alone_call : ∀ (m : Nat) (p : Pieces Ret) (c : Client) (todo : List (Ext × Job)) (res : List (Except Exc Ret)) (sent : List Sent),
    (alone m (⟨some p, todo, res, sent⟩, c)).1.now.isSome = true ∨
    ∃ m' sent', m' < m ∧ alone m' (⟨none, todo, res ++ [(p.whole c).1], sent'⟩, (p.whole c).2) = alone m (⟨some p, todo, res, sent⟩, c) := by
  intro m
  induction m with
  | zero => intro p c todo res sent; exact Or.inl rfl
  | succ m ih =>
    intro p c todo res sent
    cases hp : p with
    | done r => exact Or.inr ⟨m, sent, Nat.lt_succ_self m, rfl⟩
    | piece mm next =>
      have e : alone (m + 1) (⟨some (.piece mm next), todo, res, sent⟩, c) = alone m (⟨some (Pieces.step (.piece mm next) c).1, todo, res,
          sent ++ (Pieces.step (.piece mm next) c).2.log.drop c.log.length⟩, (Pieces.step (.piece mm next) c).2) := rfl
      rw [e]
      rcases ih (Pieces.step (.piece mm next) c).1 (Pieces.step (.piece mm next) c).2 todo res
        (sent ++ (Pieces.step (.piece mm next) c).2.log.drop c.log.length) with h | ⟨m', sent', h1, h2⟩
      · exact Or.inl h
      · refine Or.inr ⟨m', sent', Nat.lt_succ_of_lt h1, ?_⟩
        rw [whole_step] at h2
        exact h2

/-- Alone, between calls: some were made, as a whole. -/
theorem alone_between : ∀ (m : Nat) (jobs : List (Ext × Job)) (c : Client) (res : List (Except Exc Ret)) (sent : List Sent),
    (alone m (⟨none, jobs, res, sent⟩, c)).1.now = none →
    ∃ made, jobs = made ++ (alone m (⟨none, jobs, res, sent⟩, c)).1.todo ∧ (alone m (⟨none, jobs, res, sent⟩, c)).2 = (inTurn made c).2 := by
  intro m
  induction m using Nat.strongRecOn with
  | ind m ih =>
    intro jobs c res sent hn
    cases m with
    | zero => exact ⟨[], rfl, rfl⟩
    | succ m =>
      cases jobs with
      | nil =>
        rw [finished_alone (t := ⟨none, [], res, sent⟩) ⟨rfl, rfl⟩] at hn ⊢
        exact ⟨[], rfl, rfl⟩
      | cons xj l =>
        obtain ⟨x, j⟩ := xj
        have e : alone (m + 1) (⟨none, (x, j) :: l, res, sent⟩, c) = alone m (⟨some (j.pieces x), l, res, sent⟩, c) := rfl
        rw [e] at hn ⊢
        rcases alone_call m (j.pieces x) c l res sent with h | ⟨m', sent', h1, h2⟩
        · rw [hn] at h; cases h
        · rw [whole_job] at h2
          rw [← h2] at hn ⊢
          obtain ⟨made, g1, g2⟩ := ih m' (by omega) l _ _ _ hn
          exact ⟨(x, j) :: made, by rw [List.cons_append, ← g1], g2⟩

theorem Linked.record {n s : String} {t t' : Thread} {c c' : Client} (h : Linked K κ n s t t' c c') : getState c'.db s = getState c.db s := by
  cases h with
  | waiting hf _ _ => exact hf.record
  | opening hf _ _ => exact hf.record
  | running hw _ _ => exact hw.twin.record

theorem Linked.between {n s : String} {t t' : Thread} {c c' : Client} (h : Linked K κ n s t t' c c') (hn : t.now = none) :
    t'.now = none ∧ t'.todo = t.todo := by
  cases h with
  | waiting hf _ _ => exact ⟨rfl, rfl⟩
  | opening hf _ _ => exact ⟨hn, rfl⟩
  | running hw hs _ =>
    refine ⟨?_, hs.todo.symm⟩
    have := hs.now
    rw [hn] at this
    cases h' : t'.now with
    | none => rfl
    | some p => rw [h'] at this; exact this.elim

/-- Between its calls a thread finds the record of its session as if the calls it made had been made alone. -/
theorem between_calls (hK : KeySpace K) (c : Client) {kf nf : ι → String} (calls : ι → List (Ext × Job)) (hk : ∀ u, K (kf u))
    (hne : ∀ u v, kf u = kf v → u = v) (hnn : ∀ u v, nf u = nf v → u = v)
    (hl : ∀ u, Linked K c (nf u) (kf u) ⟨none, calls u, [], []⟩ ⟨none, calls u, [], []⟩ c c) (u : ι) (l : List ι)
    (hn : (((Desk.start c calls).run l).thread u).now = none) :
    ∃ made, calls u = made ++ (((Desk.start c calls).run l).thread u).todo ∧
      getState ((Desk.start c calls).run l).client.db (kf u) = getState (inTurn made c).2.db (kf u) := by
  have htog := together hK hk hne hnn u l (Desk.start c calls) (Desk.start c calls) hl (hl u)
  have hlone : alone (l.count u) ((Desk.start c calls).thread u, c) =
      (((Desk.start c calls).run (l.filter (· = u))).thread u, ((Desk.start c calls).run (l.filter (· = u))).client) := by
    refine run_alone (Desk.start c calls) u _ _ (fun v hv => by simpa using (List.mem_filter.1 hv).2) ?_
    rw [List.count_eq_countP, List.countP_eq_length_filter]
    congr 1
  obtain ⟨b1, b2⟩ := htog.between hn
  have h1 : (alone (l.count u) (⟨none, calls u, [], []⟩, c)).1 = ((Desk.start c calls).run (l.filter (· = u))).thread u := by
    have := congrArg Prod.fst hlone; exact this
  have h2 : (alone (l.count u) (⟨none, calls u, [], []⟩, c)).2 = ((Desk.start c calls).run (l.filter (· = u))).client := by
    have := congrArg Prod.snd hlone; exact this
  obtain ⟨made, g1, g2⟩ := alone_between (l.count u) (calls u) c [] [] (by rw [h1]; exact b1)
  rw [h1, b2] at g1
  rw [h2] at g2
  exact ⟨made, g1, by rw [← htog.record, g2]⟩

/-! ## The issuer of a session stays -/

theorem call_snd {α : Type} (m : Py Client α) (f : α → Ret) (c : Client) : ((m >>= fun a => (pure (f a) : Py Client Ret)) c).2 = (m c).2 := by
  rw [Py.bind_run]
  rcases m c with ⟨q, d⟩
  cases q <;> rfl

theorem job_kept (hK : KeySpace K) (hk : K k) {x : Ext} {j : Job} (ho : OwnJob k (x, j)) (c : Client) (hkn : Known K c.db) :
    Known K (j.call x c).2.db ∧ getIss (j.call x c).2.db k = getIss c.db k := by
  have loc : ∀ {α : Type} {m : Py Client α}, Frame (Local k) m → Known K (m c).2.db ∧ getIss (m c).2.db k = getIss c.db k := by
    intro α m hm
    obtain ⟨a1, a2⟩ := Kept.safe_acts hK hk (Kept.safe_of_touches hk (hm c).db) hkn
    exact ⟨a1, a2.iss⟩
  cases j with
  | begin req b => exact ho.elim
  | finalize i r b =>
    unfold Job.call
    rw [call_snd]
    obtain ⟨a1, a2, _⟩ := finalizeClient_kept hK hk x i r b c hkn
    exact ⟨a1, a2.iss⟩
  | getTokens s => obtain ⟨_, rfl⟩ := ho; unfold Job.call; rw [call_snd]; exact loc (local_getTokens x s)
  | refresh s sc => obtain ⟨_, rfl⟩ := ho; unfold Job.call; rw [call_snd]; exact loc (local_refresh x s sc)
  | userInfo s t => obtain ⟨_, rfl⟩ := ho; unfold Job.call; rw [call_snd]; exact loc (local_userInfo x s t)
  | hasActive s => unfold Job.call; rw [call_snd]; exact ⟨hkn, rfl⟩
  | validToken s => unfold Job.call; rw [call_snd]; exact ⟨hkn, rfl⟩
  | logout s u => obtain rfl : s = k := ho; unfold Job.call; rw [call_snd]; exact loc (local_logout x s u)

theorem jobs_kept (hK : KeySpace K) (hk : K k) : ∀ (jobs : List (Ext × Job)), (∀ xj ∈ jobs, OwnJob k xj) → ∀ c : Client, Known K c.db →
    Known K (inTurn jobs c).2.db ∧ getIss (inTurn jobs c).2.db k = getIss c.db k := by
  intro jobs
  induction jobs with
  | nil => intro _ c hkn; exact ⟨hkn, rfl⟩
  | cons xj jobs ih =>
    intro ho c hkn
    obtain ⟨x, j⟩ := xj
    obtain ⟨a1, a2⟩ := job_kept hK hk (ho (x, j) (List.mem_cons_self ..)) c hkn
    obtain ⟨b1, b2⟩ := ih (fun y hy => ho y (List.mem_cons_of_mem _ hy)) _ a1
    exact ⟨b1, b2.trans a2⟩

/-- After `begin` the session has the issuer of the client. -/
theorem begin_kept (hK : KeySpace K) {x : Ext} (hkx : K (x.rnd "init_state")) (req b : Obj) (c : Client) (hp : PlainConf c.conf)
    (hne : c.ctx.issuer ≠ "") (hkn : Known K c.db) (hok : (initAuthorization x req b c).1.isOk = true) :
    Known K ((Job.begin req b).call x c).2.db ∧
      getIss ((Job.begin req b).call x c).2.db (x.rnd "init_state") = .ok (.str c.ctx.issuer) := by
  unfold Job.call
  rw [call_snd]
  rcases hrun : initAuthorization x req b c with ⟨q, c'⟩
  rw [hrun] at hok
  cases q with
  | error e => cases hok
  | ok p =>
    obtain ⟨url, k⟩ := p
    obtain ⟨t⟩ := authTrace hK hkx hp hrun
    have hbeg := begins_init x req b (hK.nonempty _ hkx) c hp
    rw [hrun] at hbeg
    refine ⟨Props.known_starts hkx hbeg.db hkn, ?_⟩
    rw [← t.hk]
    refine getIss_of t.hrecord ?_
    rw [Dict.get?_set_ne _ _ (by decide)]
    have hf : Dict.get? (freshRecord c.ctx.issuer) "iss" = some (.str c.ctx.issuer) :=
      Msg.get?_ofDict_some (by simp [Dict.get?]) (by
        rw [← Bool.not_eq_true, Msg.emptyVal_iff]
        simp [hne])
    split
    · rw [Dict.get?_set_ne _ _ (by decide)]; exact hf
    · exact hf

/-- A whole call at a client, for a session of its own. -/
theorem twin_call (hK : KeySpace K) {s : String} (hs : K s) {x : Ext} {j : Job} (ho : OwnJob s (x, j)) {c : Client} (hw : TwinK κ n s c c) :
    TwinK κ n s (j.call x c).2 (j.call x c).2 := by
  obtain ⟨_, _, _, _, g⟩ := alone_pieces (good_job hK hs ho) c hw [] [] []
  rw [whole_job] at g
  exact g

theorem twin_opening {s : String} {x : Ext} {j : Job} {c : Client} (hp : Opening K κ n s (j.pieces x)) (hf : FreshK κ s c c) :
    TwinK κ n s (j.call x c).2 (j.call x c).2 := by
  obtain ⟨_, _, _, _, g⟩ := alone_opening hp c hf [] [] []
  rw [whole_job] at g
  exact g

end Verif.Desk
