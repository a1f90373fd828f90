import Verif.Props.Rush
/-!
# C122: which logins survive when clients are made meanwhile
-/

namespace Verif.Props
open Verif Verif.Service Verif.Handler Verif.Rush Verif.StateInterface
open Verif.Spec.Store (KeySpace)

/-- The object a thread has in its hands. -/
def holds : Stage → Option Nat
  | .discover r | .note r _ | .register r _ | .keep r _ | .work r _ => some r
  | _ => none

/-- No other thread than `i` puts a client in place under the name `n`. -/
def Undisturbed {ι : Type} [DecidableEq ι] (i : ι) (n : String) : List ι → Crowd ι → Prop
  | [], _ => True
  | j :: sched, s => (j ≠ i → ∀ r, s.stage j ≠ .keep r n) ∧ Undisturbed i n sched (s.step j)

/-- What the other threads do: begin logins with states of their own, or calls that leave session `k` what it was when it was
started (as `finalize` and the other calls do: C11, C75). -/
inductive Bystander (K : String → Prop) (k : String) : Task → Prop
  | begins (x : Ext) (issuer : String) (req b : Obj) (hk : K (x.rnd "init_state")) (hne : x.rnd "init_state" ≠ k) :
    Bystander K k (.begin x issuer req b)
  | uses (issuer : String) (m : Py Client Ret)
    (hm : ∀ c, PlainConf c.conf → Known K c.db → PlainConf (m c).2.conf ∧ Known K (m c).2.db ∧ SameStart k c.db (m c).2.db) :
    Bystander K k (.use issuer m)

/-- All clients and configurations are plain, and all sessions have keys as they should be. -/
structure Orderly (K : String → Prop) (H : Hall) : Prop where
  plain : ∀ r, PlainConf (H.objs r).conf
  known : ∀ r, Known K (H.objs r).db
  configs : ∀ cfg cc, Dict.get? H.configs cfg = some cc → PlainConf cc.srvConf

theorem configs_share {P : ClientConf → Prop} (hP : ∀ (cc : ClientConf) (o : Obj), P cc → P { cc with config := o }) {H : Hall}
    (h : ∀ cfg cc, Dict.get? H.configs cfg = some cc → P cc) (cfg : String) (b : Obj) :
    ∀ f cc, Dict.get? (Rush.share cfg b H).configs f = some cc → P cc := by
  unfold Rush.share
  split
  · exact h
  · next c0 h0 =>
    split
    · intro f cc hf
      simp only [Dict.get?_set] at hf
      split at hf
      · injection hf with hf; subst hf; exact hP _ _ (h _ _ h0)
      · exact h f cc hf
    · exact h

theorem orderly_onRef {α : Type} {K : String → Prop} {H : Hall} (h : Orderly K H) (r : Nat) (m : Py Client α)
    (hm : PlainConf (m (H.objs r)).2.conf ∧ Known K (m (H.objs r)).2.db) : Orderly K (onRef r m H).2 := by
  refine ⟨fun q => ?_, fun q => ?_, configs_share (P := fun cc => PlainConf cc.srvConf) (H := { H with objs := put H.objs r (m (H.objs r)).2 }) (fun _ _ hp => hp) h.configs _ _⟩ <;>
    by_cases hq : q = r
  · subst hq; rw [onRef_self]; exact hm.1
  · obtain ⟨bh, e⟩ := onRef_other hq m H; rw [e]; exact h.plain q
  · subst hq; rw [onRef_self]; exact hm.2
  · obtain ⟨bh, e⟩ := onRef_other hq m H; rw [e]; exact h.known q

theorem same_onRef {α : Type} {k : String} {H : Hall} (r q : Nat) (m : Py Client α)
    (hm : SameStart k (H.objs r).db (m (H.objs r)).2.db) : SameStart k (H.objs q).db ((onRef r m H).2.objs q).db := by
  by_cases hq : q = r
  · subst hq; rw [onRef_self]; exact hm
  · obtain ⟨bh, e⟩ := onRef_other hq m H; rw [e]; exact SameStart.refl _ _

/-- What the job of a thread does to a client: its store stays orderly. -/
def Tidy (K : String → Prop) (t : Task) : Prop :=
  ∀ c, PlainConf c.conf → Known K c.db → PlainConf (t.job c).2.conf ∧ Known K (t.job c).2.db

theorem tidy_begin {K : String → Prop} (hK : KeySpace K) {x : Ext} {i : String} {req b : Obj} (hk : K (x.rnd "init_state")) :
    Tidy K (.begin x i req b) := by
  intro c hp hd
  have hb := begins_init x req b (hK.nonempty _ hk) c hp
  exact ⟨by rw [show ((Task.begin x i req b).job c).2 = (initAuthorization x req b c).2 from rfl, hb.conf]; exact hp,
    known_starts hk hb.db hd⟩

theorem Bystander.tidy {K : String → Prop} (hK : KeySpace K) {k : String} {t : Task} (h : Bystander K k t) : Tidy K t := by
  cases h with
  | begins x i req b hk hne => exact tidy_begin hK hk
  | uses i m hm => exact fun c hp hd => ⟨(hm c hp hd).1, (hm c hp hd).2.1⟩

theorem Bystander.same {K : String → Prop} (hK : KeySpace K) {k : String} (hk : K k) {t : Task} (h : Bystander K k t) (c : Client)
    (hp : PlainConf c.conf) (hd : Known K c.db) : SameStart k c.db (t.job c).2.db := by
  cases h with
  | begins x i req b hk' hne =>
    have hb := begins_init x req b (hK.nonempty _ hk') c hp
    exact (Kept.safe_acts hK hk (safe_of_starts hk' hne hb.db) hd).2
  | uses i m hm => exact (hm c hp hd).2.2

/-- One step of a thread: order is kept, references stay within those handed out. -/
theorem orderly_step {K : String → Prop} {t : Task} (ht : Tidy K t) {st : Stage} {H : Hall} (h : Orderly K H) : Orderly K (Rush.step t st H).2 := by
  have keeps : ∀ (r : Nat) {α : Type} (m : Py Client α), (∀ c, NoStore c (m c).2) → Orderly K (onRef r m H).2 := by
    intro r α m hm
    refine orderly_onRef h r m ?_
    rw [(hm _).conf, (hm _).db]
    exact ⟨h.plain r, h.known r⟩
  cases st with
  | start => exact h
  | done n res => exact h
  | work r n => exact orderly_onRef h r _ (ht _ (h.plain r) (h.known r))
  | keep r n => exact ⟨h.plain, h.known, h.configs⟩
  | note r n => exact ⟨h.plain, h.known, h.configs⟩
  | pick =>
    cases t with
    | use i m => exact h
    | begin x i req b =>
      simp only [Rush.step, pickConfig]
      split
      · exact h
      · split
        · exact h
        · next cc hcc =>
          refine ⟨h.plain, h.known, fun f c hf => ?_⟩
          simp only [Dict.get?_set] at hf
          split at hf
          · injection hf with hf; subst hf; exact h.configs "" cc hcc
          · exact h.configs f c hf
  | make cfg =>
    cases t with
    | use i m => exact h
    | begin x i req b =>
      simp only [Rush.step, makeClient]
      split
      · exact h
      · next cc hcc =>
        refine ⟨fun q => ?_, fun q => ?_, h.configs⟩ <;> simp only [put] <;> split
        · exact h.configs _ _ hcc
        · exact h.plain q
        · intro κ v hκ
          exact absurd hκ (by simp [newClient, getIss, getState])
        · exact h.known q
  | discover r =>
    cases t with
    | use i m => exact h
    | begin x i req b => exact keeps r _ (noStore_providerInfo x)
  | register r n =>
    cases t with
    | use i m => exact h
    | begin x i req b => exact keeps r _ (noStore_register x b)

/-- References in use were handed out. -/
structure Within {ι : Type} (s : Crowd ι) : Prop where
  rp : ∀ n r, Dict.get? s.hall.rp n = some r → r < s.hall.next
  held : ∀ i r, holds (s.stage i) = some r → r < s.hall.next

theorem within_step {ι : Type} [DecidableEq ι] {s : Crowd ι} (h : Within s) (i : ι) : Within (s.step i) := by
  have grow : ∀ {st : Stage} {H : Hall}, H.next ≥ s.hall.next → (∀ n r, Dict.get? H.rp n = some r → r < H.next) →
      (∀ r, holds st = some r → r < H.next) →
      Within ({ s with stage := fun j => if j = i then st else s.stage j, hall := H } : Crowd ι) := by
    intro st H hn hr hst
    refine ⟨hr, fun j r hj => ?_⟩
    simp only at hj
    split at hj
    · exact hst r hj
    · exact Nat.lt_of_lt_of_le (h.held j r hj) hn
  have hheld := h.held i
  unfold Crowd.step
  generalize s.stage i = st at hheld
  cases st with
  | start =>
    refine grow (Nat.le_refl _) h.rp ?_
    intro r hr
    simp only [Rush.step, look] at hr
    split at hr
    · next r' h' => simp only [holds, Option.some.injEq] at hr; subst hr; exact h.rp _ _ h'
    · simp [holds] at hr
    · simp [holds] at hr
  | done n res => exact grow (Nat.le_refl _) h.rp (by simp [Rush.step, holds])
  | work r n =>
    have e := onRef_rp r (s.task i).job s.hall
    refine grow (by simp only [Rush.step]; rw [e.2]; exact Nat.le_refl _) ?_ (by simp [Rush.step, holds])
    simp only [Rush.step]; rw [e.1, e.2]; exact h.rp
  | keep r n =>
    refine grow (Nat.le_refl _) ?_ ?_
    · intro m q hq
      simp only [Rush.step, Dict.get?_set] at hq
      split at hq
      · injection hq with hq; subst hq; exact hheld r rfl
      · exact h.rp m q hq
    · intro q hq; exact hheld q hq
  | note r n => exact grow (Nat.le_refl _) h.rp (fun q hq => hheld q hq)
  | pick =>
    cases ht : s.task i with
    | use j m => exact grow (Nat.le_refl _) h.rp (by simp [Rush.step, holds])
    | begin x j req b =>
      simp only [Rush.step, pickConfig]
      split
      · exact grow (Nat.le_refl _) h.rp (by simp [holds])
      · split
        · exact grow (Nat.le_refl _) h.rp (by simp [holds])
        · exact grow (Nat.le_refl _) h.rp (by simp [holds])
  | make cfg =>
    cases ht : s.task i with
    | use j m => exact grow (Nat.le_refl _) h.rp (by simp [Rush.step, holds])
    | begin x j req b =>
      simp only [Rush.step, makeClient]
      split
      · exact grow (Nat.le_refl _) h.rp (by simp [holds])
      · refine grow (Nat.le_succ _) (fun n r hr => Nat.lt_succ_of_lt (h.rp n r hr)) ?_
        intro r hr
        simp only [holds, Option.some.injEq] at hr
        subst hr
        exact Nat.lt_succ_self _
  | discover r =>
    cases ht : s.task i with
    | use j m => exact grow (Nat.le_refl _) h.rp (fun q hq => hheld q hq)
    | begin x j req b =>
      have e := onRef_rp r (doProviderInfo x) s.hall
      refine grow (by simp only [Rush.step]; rw [e.2]; exact Nat.le_refl _) ?_ ?_
      · simp only [Rush.step]; rw [e.1, e.2]; exact h.rp
      · intro q hq
        simp only [Rush.step] at hq ⊢
        rw [e.2]
        unfold go at hq
        split at hq
        · exact hheld q hq
        · simp [holds] at hq
  | register r n =>
    cases ht : s.task i with
    | use j m => exact grow (Nat.le_refl _) h.rp (fun q hq => hheld q hq)
    | begin x j req b =>
      have e := onRef_rp r (Handler.register x b) s.hall
      refine grow (by simp only [Rush.step]; rw [e.2]; exact Nat.le_refl _) ?_ ?_
      · simp only [Rush.step]; rw [e.1, e.2]; exact h.rp
      · intro q hq
        simp only [Rush.step] at hq ⊢
        rw [e.2]
        unfold go at hq
        split at hq
        · exact hheld q hq
        · simp [holds] at hq

/-- A step of a bystander that is not about to put a client in place under `n`. -/
theorem bystander_step {K : String → Prop} (hK : KeySpace K) {k n : String} (hk : K k) {t : Task} (ht : Bystander K k t) {st : Stage} {H : Hall}
    (h : Orderly K H) (hst : ∀ r, st ≠ .keep r n) :
    Dict.get? (Rush.step t st H).2.rp n = Dict.get? H.rp n ∧
    ∀ r, r < H.next → SameStart k (H.objs r).db ((Rush.step t st H).2.objs r).db := by
  have keeps : ∀ (q : Nat) {α : Type} (m : Py Client α), (∀ c, NoStore c (m c).2) →
      Dict.get? (onRef q m H).2.rp n = Dict.get? H.rp n ∧ ∀ r, r < H.next → SameStart k (H.objs r).db ((onRef q m H).2.objs r).db := by
    intro q α m hm
    refine ⟨by rw [(onRef_rp q m H).1], fun r _ => same_onRef q r m ?_⟩
    rw [(hm _).db]
    exact SameStart.refl _ _
  have same : Dict.get? H.rp n = Dict.get? H.rp n ∧ ∀ r, r < H.next → SameStart k (H.objs r).db (H.objs r).db :=
    ⟨rfl, fun _ _ => SameStart.refl _ _⟩
  cases st with
  | start => exact same
  | done n res => exact same
  | work r m => exact ⟨by simp only [Rush.step]; rw [(onRef_rp r t.job H).1], fun q _ => same_onRef r q _ (ht.same hK hk _ (h.plain r) (h.known r))⟩
  | keep r m =>
    refine ⟨?_, fun _ _ => SameStart.refl _ _⟩
    exact Dict.get?_set_ne _ _ (fun e => hst r (by rw [e]))
  | note r m => exact same
  | pick =>
    cases t with
    | use i m => exact same
    | begin x i req b =>
      simp only [Rush.step, pickConfig]
      split
      · exact same
      · split <;> exact same
  | make cfg =>
    cases t with
    | use i m => exact same
    | begin x i req b =>
      simp only [Rush.step, makeClient]
      split
      · exact same
      · refine ⟨rfl, fun r hr => ?_⟩
        simp only
        rw [put_other _ _ (Nat.ne_of_lt hr)]
        exact SameStart.refl _ _
  | discover r =>
    cases t with
    | use i m => exact same
    | begin x i req b => exact keeps r _ (noStore_providerInfo x)
  | register r m =>
    cases t with
    | use i m => exact same
    | begin x i req b => exact keeps r _ (noStore_register x b)

/-- How the login of thread `i` stands. -/
structure Stands {ι : Type} (K : String → Prop) (i : ι) (n k : String) (s : Crowd ι) : Prop where
  orderly : Orderly K s.hall
  within : Within s
  work : ∀ r, s.stage i = .work r n → Dict.get? s.hall.rp n = some r
  done : ∀ url, s.stage i = .done n (.ok (.started url k)) →
    ∃ r, Dict.get? s.hall.rp n = some r ∧ ∃ o, getItem (s.hall.objs r).db "auth_request" k = .ok o

theorem step_done {t : Task} {st : Stage} {H : Hall} {n : String} {r : Ret} (h : (Rush.step t st H).1 = .done n (.ok r)) :
    st = .done n (.ok r) ∨ ∃ q, st = .work q n ∧ (onRef q t.job H).1 = .ok r := by
  cases st with
  | done m res => exact .inl h
  | work q m => simp only [Rush.step, Stage.done.injEq] at h; exact .inr ⟨q, by rw [h.1], h.2⟩
  | start =>
    exfalso
    simp only [Rush.step, look] at h
    split at h <;> simp at h
  | keep q m => simp [Rush.step] at h
  | note q m => simp [Rush.step] at h
  | pick =>
    exfalso
    cases t with
    | use i m => simp [Rush.step] at h
    | begin x i req b =>
      simp only [Rush.step, pickConfig] at h
      split at h
      · simp at h
      · split at h <;> simp at h
  | make cfg =>
    exfalso
    cases t with
    | use i m => simp [Rush.step] at h
    | begin x i req b =>
      simp only [Rush.step, makeClient] at h
      split at h <;> simp at h
  | discover q =>
    exfalso
    cases t with
    | use i m => simp [Rush.step] at h
    | begin x i req b =>
      simp only [Rush.step, go] at h
      split at h <;> simp at h
  | register q m =>
    exfalso
    cases t with
    | use i m => simp [Rush.step] at h
    | begin x i req b =>
      simp only [Rush.step, go] at h
      split at h <;> simp at h

theorem step_work {t : Task} {st : Stage} {H : Hall} {n : String} {r : Nat} (h : (Rush.step t st H).1 = .work r n) :
    Dict.get? (Rush.step t st H).2.rp n = some r := by
  cases st with
  | done m res => simp [Rush.step] at h
  | work q m => simp [Rush.step] at h
  | start =>
    simp only [Rush.step, look] at h ⊢
    split at h
    · next r' h' => injection h with h1 h2; rw [← h2, ← h1]; exact h'
    · simp at h
    · simp at h
  | keep q m =>
    simp only [Rush.step, Stage.work.injEq] at h ⊢
    rw [← h.1, ← h.2]
    exact Dict.get?_set_self _ _ _
  | note q m => simp [Rush.step] at h
  | pick =>
    exfalso
    cases t with
    | use i m => simp [Rush.step] at h
    | begin x i req b =>
      simp only [Rush.step, pickConfig] at h
      split at h
      · simp at h
      · split at h <;> simp at h
  | make cfg =>
    exfalso
    cases t with
    | use i m => simp [Rush.step] at h
    | begin x i req b =>
      simp only [Rush.step, makeClient] at h
      split at h <;> simp at h
  | discover q =>
    exfalso
    cases t with
    | use i m => simp [Rush.step] at h
    | begin x i req b =>
      simp only [Rush.step, go] at h
      split at h <;> simp at h
  | register q m =>
    exfalso
    cases t with
    | use i m => simp [Rush.step] at h
    | begin x i req b =>
      simp only [Rush.step, go] at h
      split at h <;> simp at h

theorem stands_step {ι : Type} [DecidableEq ι] {K : String → Prop} (hK : KeySpace K) {s : Crowd ι} {i : ι} {n k : String} {x : Ext} {iss : String}
    {req b : Obj} (hi : s.task i = .begin x iss req b) (hx : K (x.rnd "init_state"))
    (hothers : ∀ j, j ≠ i → Bystander K (x.rnd "init_state") (s.task j)) (hkx : k = x.rnd "init_state") (h : Stands K i n k s) (j : ι)
    (hj : j ≠ i → ∀ r, s.stage j ≠ .keep r n) : Stands K i n k (s.step j) := by
  subst hkx
  have htidy : Tidy K (s.task j) := by
    by_cases e : j = i
    · rw [e, hi]; exact tidy_begin hK hx
    · exact (hothers j e).tidy hK
  refine ⟨orderly_step htidy h.orderly, within_step h.within j, ?_, ?_⟩
  · intro r hr
    by_cases e : j = i
    · subst e
      simp only [Crowd.step, if_true] at hr ⊢
      exact step_work hr
    · simp only [Crowd.step, if_neg (Ne.symm e)] at hr ⊢
      rw [(bystander_step hK hx (hothers j e) h.orderly (hj e)).1]
      exact h.work r hr
  · intro url hd
    by_cases e : j = i
    · subst e
      simp only [Crowd.step, if_true] at hd ⊢
      rcases step_done hd with h1 | ⟨q, h1, h2⟩
      · rw [h1]; exact h.done url h1
      · rw [h1]
        simp only [Rush.step]
        have h3 := h.work q h1
        refine ⟨q, by rw [(onRef_rp q _ s.hall).1]; exact h3, ?_⟩
        rw [onRef_self]
        rw [show (onRef q (s.task j).job s.hall).1 = ((s.task j).job (s.hall.objs q)).1 from rfl] at h2
        rw [hi] at h2 ⊢
        simp only [Task.job] at h2 ⊢
        cases ha : (initAuthorization x req b (s.hall.objs q)).1 with
        | error e => rw [ha] at h2; cases h2
        | ok p =>
          obtain ⟨u, k'⟩ := p
          have hrun : initAuthorization x req b (s.hall.objs q) = (.ok (u, k'), (initAuthorization x req b (s.hall.objs q)).2) := Prod.ext ha rfl
          obtain ⟨t⟩ := authTrace hK hx (h.orderly.plain q) hrun
          refine ⟨Msg.ofDict t.r, ?_⟩
          rw [← t.hk]
          simp only [getItem, t.hrecord, Dict.get?_set_self, asItem]
    · simp only [Crowd.step, if_neg (Ne.symm e)] at hd ⊢
      obtain ⟨b1, b2⟩ := bystander_step hK hx (hothers j e) h.orderly (hj e)
      obtain ⟨r, h1, o, h2⟩ := h.done url hd
      exact ⟨r, b1.trans h1, o, by rw [(b2 r (h.within.rp n r h1)).request]; exact h2⟩

/-- **C122** (any providers, the part that holds).  Threads begin logins at providers known or new, and make calls, in any schedule.
A login that a thread has begun is there - the client the handler has for the provider has its request - if no other thread has put
in place a client of its own under the same name meanwhile. -/
theorem C122_not_lost_partial {ι : Type} [DecidableEq ι] {K : String → Prop} (hK : KeySpace K) (task : ι → Task) (H : Hall) (ho : H.Ok)
    (hH : Orderly K H) (i : ι) (x : Ext) (iss : String) (req b : Obj) (hi : task i = .begin x iss req b) (hx : K (x.rnd "init_state"))
    (hothers : ∀ j, j ≠ i → Bystander K (x.rnd "init_state") (task j)) (sched : List ι) (n url : String)
    (hu : Undisturbed i n sched (Crowd.start task H))
    (hd : ((Crowd.start task H).run sched).stage i = .done n (.ok (.started url (x.rnd "init_state")))) :
    ∃ c, Dict.get? ((Crowd.start task H).run sched).hall.handler.issuer2rp n = some c ∧
      ∃ o, getItem c.db "auth_request" (x.rnd "init_state") = .ok o := by
  have key : ∀ (sched : List ι) (s : Crowd ι), s.task = task → Stands K i n (x.rnd "init_state") s → Undisturbed i n sched s →
      Stands K i n (x.rnd "init_state") (s.run sched) := by
    intro sched
    induction sched with
    | nil => intro s _ h _; exact h
    | cons j sched ih =>
      intro s hs h hu
      refine ih _ hs (stands_step hK (hs ▸ hi) hx (fun j hj => by rw [hs]; exact hothers j hj) rfl h j hu.1) hu.2
  have h := key sched (Crowd.start task H) rfl ⟨hH, ⟨ho.made, fun j r hr => by simp [Crowd.start, holds] at hr⟩,
    fun r hr => by simp [Crowd.start] at hr, fun url hd => by simp [Crowd.start] at hd⟩ hu
  obtain ⟨r, h1, h2⟩ := h.done url hd
  exact ⟨_, by rw [get_handler, h1]; rfl, h2⟩

end Verif.Props
