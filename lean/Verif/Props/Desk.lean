import Verif.Lemmas.DeskBegin
/-!
# C124: calls made at the same time, for sessions of their own, at one client
-/

namespace Verif.Spec.Desk
open Verif Verif.Service Verif.Handler Verif.Desk

/-- A call for session `k`: a response is finalized that, whatever it verifies to, carries `k`, or one of the other
calls is given `k`.  What the provider answers depends on the request, not on the requests before. -/
def OwnJob (k : String) : Ext × Job → Prop
  | (x, .finalize _ r _) => Forgetful x ∧ AnswersSession k x r
  | (x, .getTokens s) => Forgetful x ∧ s = k
  | (x, .refresh s _) => Forgetful x ∧ s = k
  | (x, .userInfo s _) => Forgetful x ∧ s = k
  | (_, .hasActive s) => s = k
  | (_, .validToken s) => s = k
  | (_, .logout s _) => s = k
  | (_, .begin _ _) => False

/-- The calls, each as a whole, one after the other: what they return or raise, and the client in the end. -/
def inTurn : List (Ext × Job) → Client → List (Except Exc Ret) × Client
  | [], c => ([], c)
  | (x, j) :: l, c => ((j.call x c).1 :: (inTurn l (j.call x c).2).1, (inTurn l (j.call x c).2).2)

/-- Call by call the same: results are equal; where one call raised, the other raised the same exception (or both one of the
two by which an ID Token is refused for its nonce). -/
def SameResults : List (Except Exc Ret) → List (Except Exc Ret) → Prop
  | [], [] => True
  | r :: l, r' :: l' => Agree Refused r r' ∧ SameResults l l'
  | _, _ => False

end Verif.Spec.Desk

namespace Verif.Desk
open Verif Verif.Service Verif.Handler Verif.StateInterface Pieces
open Verif.Spec.Store (KeySpace)
open Verif.Spec.Desk

variable {K : String → Prop} {κ : Client} {n s k : String}

theorem SameResults.refl : ∀ l, SameResults l l
  | [] => trivial
  | r :: l => ⟨Agree.of_eq rfl, SameResults.refl l⟩

theorem SameResults.snoc : ∀ {l l' : List (Except Exc Ret)} {r r' : Except Exc Ret}, SameResults l l' → Agree Refused r r' →
    SameResults (l ++ [r]) (l' ++ [r'])
  | [], [], _, _, _, h => ⟨h, trivial⟩
  | _ :: _, _ :: _, _, _, h, h' => ⟨h.1, SameResults.snoc h.2 h'⟩
  | [], _ :: _, _, _, h, _ => h.elim
  | _ :: _, [], _, _, h, _ => h.elim

/-- The pieces of the calls for a session. -/
theorem good_job (hK : KeySpace K) (hs : K s) {x : Ext} {j : Job} (ho : OwnJob s (x, j)) :
    Good K κ n s (fun _ => True) (j.pieces x) := by
  cases j with
  | begin req b => exact ho.elim
  | finalize i r b => exact Good.bind (good_finalizing hK hs ho.1 ho.2 i b) fun _ _ => Good.pure _ trivial
  | getTokens q => obtain ⟨hx, rfl⟩ := ho; exact Good.bind (good_gettingTokens hK hs hx) fun _ _ => Good.pure _ trivial
  | refresh q sc => obtain ⟨hx, rfl⟩ := ho; exact Good.bind (good_refreshing hK hs hx sc) fun _ _ => Good.pure _ trivial
  | userInfo q t => obtain ⟨hx, rfl⟩ := ho; exact Good.bind (good_gettingUserInfo hK hs hx t) fun _ _ => Good.pure _ trivial
  | hasActive q =>
    obtain rfl : q = s := ho
    exact Good.bind (Good.one' (par_hasActive x) (Frame.ask _)) fun _ _ => Good.pure _ trivial
  | validToken q =>
    obtain rfl : q = s := ho
    exact Good.bind (Good.one' (par_validToken x) (Frame.ask _)) fun _ _ => Good.pure _ trivial
  | logout q u =>
    obtain rfl : q = s := ho
    exact Good.bind (good_loggingOut hK hs x u) fun _ _ => Good.pure _ trivial

theorem step_ok {α β : Type} {m : Py Client β} {next : β → Pieces α} {c d : Client} {b : β} (h : m c = (.ok b, d)) :
    Pieces.step (.piece m next) c = (next b, d) := by
  show (match m c with
    | (.ok b, d) => (next b, d)
    | (.error e, d) => (Pieces.done (.error e), d)) = _
  rw [h]

theorem step_error {α β : Type} {m : Py Client β} {next : β → Pieces α} {c d : Client} {e : Exc} (h : m c = (.error e, d)) :
    Pieces.step (.piece m next) c = (Pieces.done (.error e), d) := by
  show (match m c with
    | (.ok b, d) => (next b, d)
    | (.error e, d) => (Pieces.done (.error e), d)) = _
  rw [h]

theorem step_snd {α β : Type} {m : Py Client β} {next : β → Pieces α} {c : Client} :
    (Pieces.step (.piece m next) c).2 = (m c).2 := by
  rcases h : m c with ⟨q, d⟩
  cases q with
  | ok b => rw [step_ok h]
  | error e => rw [step_error h]

/-- What a thread has before it. -/
structure ThreadGood (K : String → Prop) (κ : Client) (n s : String) (t : Thread) : Prop where
  now : ∀ p, t.now = some p → Good K κ n s (fun _ => True) p
  todo : ∀ xj ∈ t.todo, OwnJob s xj

/-- Two threads in the same place. -/
def SameNow : Option (Pieces Ret) → Option (Pieces Ret) → Prop
  | none, none => True
  | some p, some p' => p = p' ∨ ∃ r r', p = .done r ∧ p' = .done r' ∧ Agree Refused r r'
  | _, _ => False

structure Same (t t' : Thread) : Prop where
  now : SameNow t.now t'.now
  todo : t.todo = t'.todo
  results : SameResults t.results t'.results
  sent : t.sent = t'.sent

theorem Same.refl (t : Thread) : Same t t :=
  ⟨by cases h : t.now <;> simp [SameNow], rfl, SameResults.refl _, rfl⟩

/-- A piece of the thread's own, at twins. -/
theorem own_step (hK : KeySpace K) (hs : K s) {t t' : Thread} {c c' : Client} (hsame : Same t t') (hg : ThreadGood K κ n s t)
    (hw : TwinK κ n s c c') :
    Same (t.step c).1 (t'.step c').1 ∧ ThreadGood K κ n s (t.step c).1 ∧ TwinK κ n s (t.step c).2 (t'.step c').2 ∧
      Beside K n s c (t.step c).2 := by
  obtain ⟨now, todo, results, sent⟩ := t
  obtain ⟨now', todo', results', sent'⟩ := t'
  obtain ⟨h1, h2, h3, h4⟩ := hsame
  simp only at h1 h2 h3 h4
  subst h2 h4
  cases now with
  | none =>
    cases now' with
    | some p => exact h1.elim
    | none =>
      cases todo with
      | nil => exact ⟨⟨trivial, rfl, h3, rfl⟩, hg, hw, FrameRel.refl _⟩
      | cons xj l =>
        obtain ⟨x, j⟩ := xj
        refine ⟨⟨Or.inl rfl, rfl, h3, rfl⟩, ⟨fun p hp => ?_, fun y hy => hg.todo y (List.mem_cons_of_mem _ hy)⟩, hw, FrameRel.refl _⟩
        injection hp with hp
        subst hp
        exact good_job hK hs (hg.todo (x, j) (List.mem_cons_self ..))
  | some p =>
    cases now' with
    | none => exact h1.elim
    | some p' =>
      have hdone : ∀ r r', p = .done r → p' = .done r' → Agree Refused r r' →
          Same (Thread.step ⟨some p, todo, results, sent⟩ c).1 (Thread.step ⟨some p', todo, results', sent⟩ c').1 ∧
          ThreadGood K κ n s (Thread.step ⟨some p, todo, results, sent⟩ c).1 ∧
          TwinK κ n s (Thread.step ⟨some p, todo, results, sent⟩ c).2 (Thread.step ⟨some p', todo, results', sent⟩ c').2 ∧
          Beside K n s c (Thread.step ⟨some p, todo, results, sent⟩ c).2 := by
        intro r r' e e' ha
        subst e e'
        exact ⟨⟨trivial, rfl, SameResults.snoc h3 ha, rfl⟩, ⟨fun _ h => (by cases h), hg.todo⟩, hw, FrameRel.refl _⟩
      have hgp := hg.now p rfl
      rcases h1 with e | ⟨r, r', e, e', ha⟩
      · subst e
        cases p with
        | done r => exact hdone r r rfl rfl (Agree.of_eq rfl)
        | piece m next =>
          cases hgp with
          | piece _ _ par frame rest =>
            obtain ⟨a1, a2, l, a3, a4⟩ := par c c' hw
            have b := frame c hw.like
            have hrest := fun b => rest c c' b hw
            show Same ⟨some (Pieces.step (.piece m next) c).1, todo, results, sent ++ _⟩ ⟨some (Pieces.step (.piece m next) c').1, todo, results', sent ++ _⟩ ∧
              ThreadGood K κ n s ⟨some (Pieces.step (.piece m next) c).1, todo, results, _⟩ ∧
              TwinK κ n s (Pieces.step (.piece m next) c).2 (Pieces.step (.piece m next) c').2 ∧
              Beside K n s c (Pieces.step (.piece m next) c).2
            have b' := frame c' hw.like'
            rw [step_snd, step_snd]
            have ht : TwinK κ n s (m c).2 (m c').2 := ⟨a2, hw.like.beside b, hw.like'.beside b'⟩
            have hnow : (Pieces.step (.piece m next) c).1 = (Pieces.step (.piece m next) c').1 ∨
                ∃ r r', (Pieces.step (.piece m next) c).1 = .done r ∧ (Pieces.step (.piece m next) c').1 = .done r' ∧ Agree Refused r r' := by
              rcases hmc : m c with ⟨q, d⟩
              rcases hmc' : m c' with ⟨q', d'⟩
              rw [hmc, hmc'] at a1
              cases q <;> cases q' <;> first | exact a1.elim | skip
              · exact Or.inr ⟨_, _, by rw [step_error hmc], by rw [step_error hmc'], a1⟩
              · left
                have a1 : _ = _ := a1
                subst a1
                rw [step_ok hmc, step_ok hmc']
            have hgood : Good K κ n s (fun _ => True) (Pieces.step (.piece m next) c).1 := by
              rcases hmc : m c with ⟨q, d⟩
              rw [hmc] at hrest
              cases q with
              | error e => rw [step_error hmc]; exact .done _ fun _ _ => trivial
              | ok b => rw [step_ok hmc]; exact hrest b rfl
            refine ⟨⟨hnow, rfl, h3, ?_⟩, ⟨fun p hp => ?_, hg.todo⟩, ht, b⟩
            · simp only [a3, a4, List.drop_left]
            · injection hp with hp
              exact hp ▸ hgood
      · exact hdone r r' e e' ha

/-- A piece of another thread. -/
theorem twin_beside {m q : String} (hk : K k) (hne : k ≠ q) (hm : n ≠ m) {c d c' d' : Client} (hw : TwinK κ n k c c')
    (hb : Beside K m q c d) (hb' : Beside K m q c' d') : TwinK κ n k d d' := by
  obtain ⟨r1, r2⟩ := hb.rest n k hk hne hm hw.twin.own
  obtain ⟨r1', r2'⟩ := hb'.rest n k hk hne hm hw.twin.own'
  refine ⟨⟨?_, ?_, ?_, ?_, ?_, ?_, r1, r1'⟩, hw.like.beside hb, hw.like'.beside hb'⟩
  · rw [hb.ctx, hb'.ctx]; exact hw.twin.ctx
  · rw [hb.services, hb'.services]; exact hw.twin.services
  · rw [hb.conf, hb'.conf]; exact hw.twin.conf
  · rw [hb.cfg, hb'.cfg]; exact hw.twin.cfg
  · rw [hb.ctx, hb.key, hb'.key]; exact hw.twin.key
  · rw [r2, r2']; exact hw.twin.record

theorem fresh_beside {m q : String} (hk : K k) (hne : k ≠ q) {c d c' d' : Client} (hw : FreshK κ k c c')
    (hb : Beside K m q c d) (hb' : Beside K m q c' d') : FreshK κ k d d' := by
  obtain ⟨r1, r2⟩ := hb.fresh k hk hne hw.unused
  obtain ⟨r1', r2'⟩ := hb'.fresh k hk hne hw.unused'
  exact ⟨hw.like.beside hb, hw.like'.beside hb', hw.dpop, r1, r1', by rw [r2, r2']; exact hw.record⟩

/-- Two threads in the same place at clients where what matters to them is the same. -/
inductive Linked (K : String → Prop) (κ : Client) (n s : String) : Thread → Thread → Client → Client → Prop where
  | waiting {x : Ext} {j : Job} {todo : List (Ext × Job)} {results : List (Except Exc Ret)} {sent : List Sent} {c c' : Client}
      (hf : FreshK κ s c c') (hp : Opening K κ n s (j.pieces x)) (ht : ∀ xj ∈ todo, OwnJob s xj) :
      Linked K κ n s ⟨none, (x, j) :: todo, results, sent⟩ ⟨none, (x, j) :: todo, results, sent⟩ c c'
  | opening {p : Pieces Ret} {todo : List (Ext × Job)} {results : List (Except Exc Ret)} {sent : List Sent} {c c' : Client}
      (hf : FreshK κ s c c') (hp : Opening K κ n s p) (ht : ∀ xj ∈ todo, OwnJob s xj) :
      Linked K κ n s ⟨some p, todo, results, sent⟩ ⟨some p, todo, results, sent⟩ c c'
  | running {t t' : Thread} {c c' : Client} (hw : TwinK κ n s c c') (hs : Same t t') (hg : ThreadGood K κ n s t) : Linked K κ n s t t' c c'

theorem Linked.like {t t' : Thread} {c c' : Client} (h : Linked K κ n s t t' c c') : Like κ c ∧ Like κ c' := by
  cases h with
  | waiting hf _ _ => exact ⟨hf.like, hf.like'⟩
  | opening hf _ _ => exact ⟨hf.like, hf.like'⟩
  | running hw _ _ => exact ⟨hw.like, hw.like'⟩

theorem Linked.beside {m q : String} (hk : K s) (hne : s ≠ q) (hm : n ≠ m) {t t' : Thread} {c d c' d' : Client}
    (h : Linked K κ n s t t' c c') (hb : Beside K m q c d) (hb' : Beside K m q c' d') : Linked K κ n s t t' d d' := by
  cases h with
  | waiting hf hp ht => exact .waiting (fresh_beside hk hne hf hb hb') hp ht
  | opening hf hp ht => exact .opening (fresh_beside hk hne hf hb hb') hp ht
  | running hw hs hg => exact .running (twin_beside hk hne hm hw hb hb') hs hg

theorem piece_step {α β : Type} {m : Py Client β} {next : β → Pieces α} {c : Client} {b : β} (h : (m c).1 = .ok b) :
    Pieces.step (.piece m next) c = (next b, (m c).2) := by
  rcases hm : m c with ⟨q, d⟩
  rw [hm] at h
  simp only at h
  subst h
  exact step_ok hm

theorem thread_step {β : Type} {m : Py Client β} {next : β → Pieces Ret} {todo : List (Ext × Job)} {results : List (Except Exc Ret)}
    {sent : List Sent} {c : Client} {b : β} {l : List Sent} (h : (m c).1 = .ok b) (hl : (m c).2.log = c.log ++ l) :
    Thread.step ⟨some (.piece m next), todo, results, sent⟩ c = (⟨some (next b), todo, results, sent ++ l⟩, (m c).2) := by
  show (({ now := some (Pieces.step (.piece m next) c).1, todo := todo, results := results,
           sent := sent ++ (Pieces.step (.piece m next) c).2.log.drop c.log.length } : Thread), (Pieces.step (.piece m next) c).2) = _
  rw [piece_step h, hl, List.drop_left]

/-- A piece of the thread's own. -/
theorem Linked.step (hK : KeySpace K) (hs : K s) {t t' : Thread} {c c' : Client} (h : Linked K κ n s t t' c c') :
    Linked K κ n s (t.step c).1 (t'.step c').1 (t.step c).2 (t'.step c').2 ∧ Beside K n s c (t.step c).2 := by
  cases h with
  | waiting hf hp ht => exact ⟨.opening hf hp ht, FrameRel.refl _⟩
  | opening hf hp ht =>
    cases hp with
    | more m next par frame rest =>
      obtain ⟨b, h1, h2, h3, l, h4, h5⟩ := par c c' hf
      rw [thread_step h1 h4, thread_step h2 h5]
      exact ⟨.opening h3 (rest c b hf.like h1) ht, frame c hf.like⟩
    | last m next par frame rest =>
      obtain ⟨b, h1, h2, h3, l, h4, h5⟩ := par c c' hf
      rw [thread_step h1 h4, thread_step h2 h5]
      refine ⟨.running h3 ⟨Or.inl rfl, rfl, SameResults.refl _, rfl⟩ ⟨fun p hp => ?_, ht⟩, frame c hf.like⟩
      injection hp with hp
      exact hp ▸ rest c b hf.like h1
  | running hw hsm hg =>
    obtain ⟨a1, a2, a3, a4⟩ := own_step hK hs hsm hg hw
    exact ⟨.running a3 a1 a2, a4⟩

/-! ## A thread alone -/

/-- So many pieces of a thread by itself. -/
def alone : Nat → Thread × Client → Thread × Client
  | 0, a => a
  | m + 1, a => alone m (a.1.step a.2)

theorem alone_add (m m' : Nat) (a : Thread × Client) : alone (m + m') a = alone m' (alone m a) := by
  induction m generalizing a with
  | zero => rw [Nat.zero_add]; rfl
  | succ m ih =>
    rw [Nat.succ_add]
    exact ih _

theorem finished_step {t : Thread} (h : t.finished) (c : Client) : t.step c = (t, c) := by
  obtain ⟨now, todo, results, sent⟩ := t
  obtain ⟨h1, h2⟩ := h
  simp only at h1 h2
  subst h2
  cases now with
  | none => rfl
  | some p => cases h1

theorem finished_alone {t : Thread} (h : t.finished) (c : Client) (m : Nat) : alone m (t, c) = (t, c) := by
  induction m with
  | zero => rfl
  | succ m ih =>
    show alone m (t.step c) = _
    rw [finished_step h]
    exact ih

theorem alone_pieces {p : Pieces Ret} (hp : Good K κ n s (fun _ => True) p) : ∀ (c : Client), TwinK κ n s c c → ∀ todo results sent,
    ∃ m l, alone m (⟨some p, todo, results, sent⟩, c) = (⟨some (.done (p.whole c).1), todo, results, sent ++ l⟩, (p.whole c).2) ∧
      (p.whole c).2.log = c.log ++ l ∧ TwinK κ n s (p.whole c).2 (p.whole c).2 := by
  induction hp with
  | done r _ => intro c hw todo results sent; exact ⟨0, [], by simp [alone, Pieces.whole, Py.lift], by simp [Pieces.whole, Py.lift], hw⟩
  | piece m next par frame rest ih =>
    intro c hw todo results sent
    obtain ⟨_, a2, l, a3, _⟩ := par c c hw
    have b := frame c hw.like
    have hw' : TwinK κ n s (m c).2 (m c).2 := ⟨a2, hw.like.beside b, hw.like.beside b⟩
    have ih' := fun b => ih c c b hw
    rcases hmc : m c with ⟨q, d⟩
    rw [hmc] at a3 hw' ih'
    simp only at a3
    have hst : Thread.step ⟨some (.piece m next), todo, results, sent⟩ c =
        (⟨some (Pieces.step (.piece m next) c).1, todo, results, sent ++ l⟩, d) := by
      show (({ now := some (Pieces.step (.piece m next) c).1, todo := todo, results := results,
               sent := sent ++ (Pieces.step (.piece m next) c).2.log.drop c.log.length } : Thread), (Pieces.step (.piece m next) c).2) = _
      have e1 : (Pieces.step (.piece m next) c).2 = d := by
        rw [step_snd, hmc]
      rw [e1, a3, List.drop_left]
    cases q with
    | error e =>
      have hwh : Pieces.whole (.piece m next) c = (.error e, d) := by
        show (m >>= fun b => (next b).whole) c = _
        rw [Py.bind_error hmc]
      refine ⟨1, l, ?_, by rw [hwh]; exact a3, by rw [hwh]; exact hw'⟩
      rw [hwh]
      show Thread.step ⟨some (.piece m next), todo, results, sent⟩ c = _
      rw [hst, step_error hmc]
    | ok b =>
      have hwh : Pieces.whole (.piece m next) c = (next b).whole d := by
        show (m >>= fun b => (next b).whole) c = _
        rw [Py.bind_ok hmc]
      obtain ⟨m', l', g1, g2, g3⟩ := ih' b rfl d hw' todo results (sent ++ l)
      refine ⟨1 + m', l ++ l', ?_, ?_, ?_⟩
      · rw [alone_add]
        show alone m' (Thread.step ⟨some (.piece m next), todo, results, sent⟩ c) = _
        rw [hst, hwh, step_ok hmc, g1, List.append_assoc]
      · rw [hwh, g2, a3, List.append_assoc]
      · rw [hwh]; exact g3

theorem alone_jobs (hK : KeySpace K) (hs : K s) : ∀ (jobs : List (Ext × Job)), (∀ xj ∈ jobs, OwnJob s xj) →
    ∀ (c : Client), TwinK κ n s c c → ∀ results sent,
    ∃ m l, alone m (⟨none, jobs, results, sent⟩, c) = (⟨none, [], results ++ (inTurn jobs c).1, sent ++ l⟩, (inTurn jobs c).2) ∧
      (inTurn jobs c).2.log = c.log ++ l := by
  intro jobs
  induction jobs with
  | nil => intro _ c _ results sent; exact ⟨0, [], by simp [alone, inTurn], by simp [inTurn]⟩
  | cons xj jobs ih =>
    intro ho c hw results sent
    obtain ⟨x, j⟩ := xj
    have hg : Good K κ n s (fun _ => True) (j.pieces x) := good_job hK hs (ho (x, j) (List.mem_cons_self ..))
    obtain ⟨m, l, g1, g2, g3⟩ := alone_pieces hg c hw jobs results sent
    rw [whole_job] at g1 g2 g3
    obtain ⟨m', l', f1, f2⟩ := ih (fun y hy => ho y (List.mem_cons_of_mem _ hy)) _ g3 (results ++ [(j.call x c).1]) (sent ++ l)
    refine ⟨1 + (m + (1 + m')), l ++ l', ?_, ?_⟩
    · rw [alone_add]
      show alone _ (⟨some (j.pieces x), jobs, results, sent⟩, c) = _
      rw [alone_add, g1, alone_add]
      show alone m' (⟨none, jobs, results ++ [(j.call x c).1], sent ++ l⟩, (j.call x c).2) = _
      rw [f1]
      simp [inTurn]
    · show (inTurn jobs (j.call x c).2).2.log = _
      rw [f2, g2, List.append_assoc]

theorem alone_opening {p : Pieces Ret} (hp : Opening K κ n s p) : ∀ (c : Client), FreshK κ s c c → ∀ todo results sent,
    ∃ m l, alone m (⟨some p, todo, results, sent⟩, c) = (⟨some (.done (p.whole c).1), todo, results, sent ++ l⟩, (p.whole c).2) ∧
      (p.whole c).2.log = c.log ++ l ∧ TwinK κ n s (p.whole c).2 (p.whole c).2 := by
  have hwh : ∀ {β : Type} {m : Py Client β} {next : β → Pieces Ret} {c : Client} {b : β}, (m c).1 = .ok b →
      Pieces.whole (.piece m next) c = (next b).whole (m c).2 := by
    intro β m next c b h
    rcases hm : m c with ⟨q, d⟩
    rw [hm] at h
    simp only at h
    subst h
    show (m >>= fun b => (next b).whole) c = _
    rw [Py.bind_ok hm]
  induction hp with
  | more m next par frame rest ih =>
    intro c hf todo results sent
    obtain ⟨b, h1, _, h3, l, h4, _⟩ := par c c hf
    obtain ⟨m', l', g1, g2, g3⟩ := ih c b hf.like h1 (m c).2 h3 todo results (sent ++ l)
    refine ⟨1 + m', l ++ l', ?_, ?_, ?_⟩
    · rw [alone_add]
      show alone m' (Thread.step ⟨some (.piece m next), todo, results, sent⟩ c) = _
      rw [thread_step h1 h4, hwh h1, g1, List.append_assoc]
    · rw [hwh h1, g2, h4, List.append_assoc]
    · rw [hwh h1]; exact g3
  | last m next par frame rest =>
    intro c hf todo results sent
    obtain ⟨b, h1, _, h3, l, h4, _⟩ := par c c hf
    obtain ⟨m', l', g1, g2, g3⟩ := alone_pieces (rest c b hf.like h1) (m c).2 h3 todo results (sent ++ l)
    refine ⟨1 + m', l ++ l', ?_, ?_, ?_⟩
    · rw [alone_add]
      show alone m' (Thread.step ⟨some (.piece m next), todo, results, sent⟩ c) = _
      rw [thread_step h1 h4, hwh h1, g1, List.append_assoc]
    · rw [hwh h1, g2, h4, List.append_assoc]
    · rw [hwh h1]; exact g3

/-- The calls of a thread, alone. -/
theorem alone_linked (hK : KeySpace K) (hs : K s) {jobs : List (Ext × Job)} {c : Client}
    (h : Linked K κ n s ⟨none, jobs, [], []⟩ ⟨none, jobs, [], []⟩ c c) :
    ∃ m l, alone m (⟨none, jobs, [], []⟩, c) = (⟨none, [], (inTurn jobs c).1, l⟩, (inTurn jobs c).2) ∧
      (inTurn jobs c).2.log = c.log ++ l := by
  cases h with
  | waiting hf hp ht =>
    next x j todo =>
    obtain ⟨m, l, g1, g2, g3⟩ := alone_opening hp c hf todo [] []
    rw [whole_job] at g1 g2 g3
    obtain ⟨m', l', f1, f2⟩ := alone_jobs hK hs todo ht _ g3 ([] ++ [(j.call x c).1]) ([] ++ l)
    refine ⟨1 + (m + (1 + m')), l ++ l', ?_, ?_⟩
    · rw [alone_add]
      show alone _ (⟨some (j.pieces x), todo, [], []⟩, c) = _
      rw [alone_add, g1, alone_add]
      show alone m' (⟨none, todo, [] ++ [(j.call x c).1], [] ++ l⟩, (j.call x c).2) = _
      rw [f1]
      simp [inTurn]
    · show (inTurn todo (j.call x c).2).2.log = _
      rw [f2, g2, List.append_assoc]
  | running hw _ hg =>
    obtain ⟨m, l, g1, g2⟩ := alone_jobs hK hs jobs hg.todo c hw [] []
    exact ⟨m, l, by rw [g1]; simp, g2⟩

/-! ## Threads together -/

variable {ι : Type} [DecidableEq ι]

theorem run_alone (d : Desk ι) (u : ι) : ∀ (m : Nat) (l : List ι), (∀ v ∈ l, v = u) → l.length = m →
    alone m (d.thread u, d.client) = ((d.run l).thread u, (d.run l).client) := by
  intro m l
  induction l generalizing d m with
  | nil => intro _ h; simp only [List.length_nil] at h; subst h; rfl
  | cons v l ih =>
    intro hv hl
    have := hv v (List.mem_cons_self ..)
    subst this
    simp only [List.length_cons] at hl
    subst hl
    have := ih (d.step v) l.length (fun w hw => hv w (List.mem_cons_of_mem _ hw)) rfl
    show alone l.length ((d.thread v).step d.client) = _
    have e : ((d.thread v).step d.client) = ((d.step v).thread v, (d.step v).client) := by
      simp [Desk.step]
    rw [e]
    exact this

theorem together (hK : KeySpace K) {kf nf : ι → String} (hk : ∀ u, K (kf u)) (hne : ∀ u v, kf u = kf v → u = v)
    (hnn : ∀ u v, nf u = nf v → u = v) (u : ι) :
    ∀ (l : List ι) (d e : Desk ι), (∀ v, Linked K κ (nf v) (kf v) (d.thread v) (d.thread v) d.client d.client) →
    Linked K κ (nf u) (kf u) (d.thread u) (e.thread u) d.client e.client →
    Linked K κ (nf u) (kf u) ((d.run l).thread u) ((e.run (l.filter (· = u))).thread u)
      (d.run l).client (e.run (l.filter (· = u))).client := by
  intro l
  induction l with
  | nil => intro d e _ hw; exact hw
  | cons v l ih =>
    intro d e hg hw
    obtain ⟨s1, s2⟩ := (hg v).step hK (hk v)
    have hg' : ∀ w, Linked K κ (nf w) (kf w) ((d.step v).thread w) ((d.step v).thread w) (d.step v).client (d.step v).client := by
      intro w
      by_cases h : w = v
      · subst h; simpa [Desk.step] using s1
      · have := (hg w).beside (hk w) (fun e => h (hne w v e)) (fun e => h (hnn w v e)) s2 s2
        simpa [Desk.step, h] using this
    by_cases h : v = u
    · subst h
      rw [List.filter_cons_of_pos (by simp)]
      refine ih (d.step v) (e.step v) hg' ?_
      simpa [Desk.step] using (hw.step hK (hk v)).1
    · rw [List.filter_cons_of_neg (by simpa using h)]
      refine ih (d.step v) e hg' ?_
      have h1 : (d.step v).thread u = d.thread u := by simp [Desk.step, Ne.symm h]
      rw [h1]
      exact hw.beside (hk u) (fun e => h (hne u v e).symm) (fun e => h (hnn u v e).symm) s2 (FrameRel.refl _)

theorem Linked.finished {t t' : Thread} {c c' : Client} (h : Linked K κ n s t t' c c') : t.finished ↔ t'.finished := by
  cases h with
  | waiting _ _ _ => exact Iff.rfl
  | opening _ _ _ => exact Iff.rfl
  | running _ hs _ =>
    unfold Thread.finished
    rw [hs.todo]
    have := hs.now
    revert this
    cases t.now <;> cases t'.now <;> intro h <;> first | exact h.elim | simp

/-- Threads that are given their calls. -/
theorem as_if_alone (hK : KeySpace K) (c : Client) {kf nf : ι → String} (calls : ι → List (Ext × Job)) (hk : ∀ u, K (kf u))
    (hne : ∀ u v, kf u = kf v → u = v) (hnn : ∀ u v, nf u = nf v → u = v)
    (hl : ∀ u, Linked K c (nf u) (kf u) ⟨none, calls u, [], []⟩ ⟨none, calls u, [], []⟩ c c) (u : ι) :
    (∃ N, ∀ l : List ι, N ≤ l.count u → (((Desk.start c calls).run l).thread u).finished) ∧
    ∀ l : List ι, (((Desk.start c calls).run l).thread u).finished →
      SameResults (((Desk.start c calls).run l).thread u).results (inTurn (calls u) c).1 ∧
      c.log ++ (((Desk.start c calls).run l).thread u).sent = (inTurn (calls u) c).2.log ∧
      getState ((Desk.start c calls).run l).client.db (kf u) = getState (inTurn (calls u) c).2.db (kf u) := by
  have htog := fun l => together hK hk hne hnn u l (Desk.start c calls) (Desk.start c calls) hl (hl u)
  obtain ⟨N, sent, a1, a2⟩ := alone_linked hK (hk u) (hl u)
  have hlone : ∀ l : List ι, alone (l.count u) ((Desk.start c calls).thread u, c) =
      (((Desk.start c calls).run (l.filter (· = u))).thread u, ((Desk.start c calls).run (l.filter (· = u))).client) := by
    intro l
    refine run_alone (Desk.start c calls) u _ _ (fun v hv => by simpa using (List.mem_filter.1 hv).2) ?_
    rw [List.count_eq_countP, List.countP_eq_length_filter]
    congr 1
  have hfin : Thread.finished ⟨none, [], (inTurn (calls u) c).1, sent⟩ := ⟨rfl, rfl⟩
  constructor
  · refine ⟨N, fun l hl => ?_⟩
    have h1 := hlone l
    obtain ⟨m, hm⟩ := Nat.exists_eq_add_of_le hl
    rw [hm, alone_add, show ((Desk.start c calls).thread u, c) = (⟨none, calls u, [], []⟩, c) from rfl, a1, finished_alone hfin] at h1
    rw [(htog l).finished]
    have h3 := (Prod.ext_iff.1 h1).1
    simp only at h3
    rw [← h3]
    exact hfin
  · intro l hl
    have h1 := hlone l
    have hlf := (htog l).finished.1 hl
    have h2 : alone (l.count u + N) ((Desk.start c calls).thread u, c) = alone (N + l.count u) ((Desk.start c calls).thread u, c) := by
      rw [Nat.add_comm]
    rw [alone_add, h1, finished_alone hlf, alone_add, show ((Desk.start c calls).thread u, c) = (⟨none, calls u, [], []⟩, c) from rfl, a1,
      finished_alone hfin] at h2
    obtain ⟨e1, e2⟩ := Prod.ext_iff.1 h2
    simp only at e1 e2
    have hw := htog l
    rw [e1, e2] at hw
    generalize ((Desk.start c calls).run l).thread u = t at hw hl ⊢
    generalize ((Desk.start c calls).run l).client = d at hw ⊢
    cases hw with
    | running hw hs _ =>
      refine ⟨hs.results, ?_, hw.twin.record.symm⟩
      rw [hs.sent]
      exact a2.symm

end Verif.Desk

namespace Verif.Props
open Verif Verif.Service Verif.Handler Verif.StateInterface Verif.Desk Verif.Spec.Desk
open Verif.Spec.Store (KeySpace)

/-- **C124.**  Any number of threads at the client of a provider, each making calls for a session of its own: sessions that are in
flight or running (`Own`: the nonce, and no other, leads to the session; nothing is stored without a name).  If DPoP is in use,
there is a key already.  However the pieces of the calls are interleaved: a thread that comes to its turn often enough has
made its calls, and then each has returned or raised what it does when the calls are made alone, one after the other, each
as a whole; the same requests were sent, and the record of the session is the same. -/
theorem C124_as_if_alone_partial {ι : Type} [DecidableEq ι] {K : String → Prop} (hK : KeySpace K) (c : Client)
    (session nonce : ι → String) (calls : ι → List (Ext × Job))
    (hkeys : ∀ u, K (session u)) (hdistinct : ∀ u v, session u = session v → u = v)
    (hown : ∀ u, Own (nonce u) (session u) c.db)
    (hdpop : Dict.has c.ctx.addOn "dpop" = true → c.dpopKey.isSome)
    (hcalls : ∀ u, ∀ xj ∈ calls u, OwnJob (session u) xj) (u : ι) :
    (∃ N, ∀ l : List ι, N ≤ l.count u → (((Desk.start c calls).run l).thread u).finished) ∧
    ∀ l : List ι, (((Desk.start c calls).run l).thread u).finished →
      SameResults (((Desk.start c calls).run l).thread u).results (inTurn (calls u) c).1 ∧
      c.log ++ (((Desk.start c calls).run l).thread u).sent = (inTurn (calls u) c).2.log ∧
      getState ((Desk.start c calls).run l).client.db (session u) = getState (inTurn (calls u) c).2.db (session u) := by
  refine as_if_alone (nf := nonce) hK c calls hkeys hdistinct (fun u v e => hdistinct u v ?_) (fun u => ?_) u
  · have h1 := (hown u).nonce
    rw [e, (hown v).nonce] at h1
    injection h1 with h1
    injection h1 with h1
    exact h1.symm
  · have hlike : Like c c := ⟨rfl, rfl, rfl, rfl, rfl⟩
    exact .running ⟨⟨rfl, rfl, rfl, rfl, fun hd => ⟨hdpop hd, rfl⟩, rfl, hown u, hown u⟩, hlike, hlike⟩ (Same.refl _)
      ⟨fun _ h => (by cases h), hcalls u⟩

/-- **C124**, the calls: what a thread does is what the handler does at the client of the provider. -/
theorem C124_calls (x : Ext) (h : Handler) (i : String) :
    (∀ r b, exec x (.finalize i r b) h = onClient i ((Job.finalize i r b).call x) h) ∧
    ∀ k, sessionIssuer h k = .ok i →
      exec x (.getTokens k) h = onClient i ((Job.getTokens k).call x) h ∧
      (∀ sc, exec x (.refresh k sc) h = onClient i ((Job.refresh k sc).call x) h) ∧
      (∀ t, exec x (.userInfo k t) h = onClient i ((Job.userInfo k t).call x) h) ∧
      exec x (.hasActive k) h = onClient i ((Job.hasActive k).call x) h ∧
      exec x (.validToken k) h = onClient i ((Job.validToken k).call x) h ∧
      (∀ u, exec x (.logout k u) h = onClient i ((Job.logout k u).call x) h) := by
  have hm : ∀ {α : Type} (f : α → Ret) (m : Py Client α), ret f (onClient i m) h = onClient i (m >>= fun a => pure (f a)) h := by
    intro α f m
    unfold ret onClient
    cases Dict.get? h.issuer2rp i with
    | none => rfl
    | some c =>
      simp only
      rw [Py.bind_run]
      rcases m c with ⟨q, d⟩
      cases q <;> rfl
  have hs : ∀ {α : Type} (f : α → Ret) (m : Py Client α) (k : String), sessionIssuer h k = .ok i →
      ret f (onSession k m) h = onClient i (m >>= fun a => pure (f a)) h := by
    intro α f m k hk
    rw [← hm f m]
    unfold ret onSession
    rw [hk]
  exact ⟨fun r b => hm _ _, fun k hk => ⟨hs _ _ k hk, fun _ => hs _ _ k hk, fun _ => hs _ _ k hk, hs _ _ k hk, hs _ _ k hk,
    fun _ => hs _ _ k hk⟩⟩

end Verif.Props
