import Verif.Lemmas.Rush
import Verif.Lemmas.World
/-!
# C122: logins begun by several threads at once
-/

namespace Verif.Props
open Verif Verif.Service Verif.Handler Verif.Rush

/-! ## One thread alone -/

/-- The first `n` steps of a thread, with nobody else at work. -/
def steps (t : Task) : Nat → Stage × Hall → Stage × Hall
  | 0, p => p
  | n + 1, p => steps t n (Rush.step t p.1 p.2)

theorem steps_add (t : Task) : ∀ (m n : Nat) (p : Stage × Hall), steps t (m + n) p = steps t n (steps t m p) := by
  intro m
  induction m with
  | zero => intro n p; rw [Nat.zero_add]; rfl
  | succ m ih => intro n p; rw [Nat.succ_add]; exact ih n _

theorem steps_done (t : Task) (n : String) (res : Except Exc Ret) (H : Hall) : ∀ m, steps t m (.done n res, H) = (.done n res, H) := by
  intro m
  induction m with
  | zero => rfl
  | succ m ih => exact ih

/-- A thread that runs alone ends with the result and the handler of its call. -/
def EndsAs (t : Task) (n : Nat) (p : Stage × Hall) (q : Except Exc Ret × Handler) : Prop :=
  ∃ name H', steps t n p = (.done name q.1, H') ∧ H'.handler = q.2

theorem EndsAs.step {t : Task} {n : Nat} {p p' : Stage × Hall} {q : Except Exc Ret × Handler} (h : EndsAs t n p' q)
    (e : Rush.step t p.1 p.2 = p') : EndsAs t (n + 1) p q := by
  obtain ⟨name, H', h1, h2⟩ := h
  exact ⟨name, H', by rw [← h1, ← e]; rfl, h2⟩

theorem EndsAs.more {t : Task} {n m : Nat} {p : Stage × Hall} {q : Except Exc Ret × Handler} (h : EndsAs t n p q) (hm : n ≤ m) :
    EndsAs t m p q := by
  obtain ⟨name, H', h1, h2⟩ := h
  obtain ⟨k, rfl⟩ := Nat.le.dest hm
  exact ⟨name, H', by rw [steps_add, h1, steps_done], h2⟩

theorem ends_done {t : Task} {name : String} {res : Except Exc Ret} {H : Hall} : EndsAs t 0 (.done name res, H) (res, H.handler) :=
  ⟨name, H, rfl, rfl⟩

theorem ends_work {t : Task} {H : Hall} (ho : H.Ok) {i : String} {r : Nat} (hr : Dict.get? H.rp i = some r) :
    EndsAs t 1 (.work r i, H) (onClient i t.job H.handler) := by
  obtain ⟨e1, e2⟩ := onRef_kept ho hr t.job
  exact ⟨i, _, by rw [← e1]; rfl, e2⟩

theorem job_begin (x : Ext) (i : String) (req b : Obj) (k : String) (h : Handler) :
    onClient k (Task.begin x i req b).job h =
      ((onClient k (initAuthorization x req b) h).1.map (fun p => .started p.1 p.2), (onClient k (initAuthorization x req b) h).2) := by
  unfold onClient Task.job
  cases Dict.get? h.issuer2rp k <;> rfl

/-- What `begin` does once the client is there. -/
theorem begin_of_setup {x : Ext} {i : String} {req b : Obj} {h h1 : Handler} {k : String} (hs : clientSetup x i "" b h = (.ok k, h1)) :
    (Task.begin x i req b).call h = onClient k (Task.begin x i req b).job h1 := by
  rw [job_begin]
  simp only [Task.call, exec, ret, begin_]
  rw [Py.bind_ok hs]

theorem begin_of_failed {x : Ext} {i : String} {req b : Obj} {h h1 : Handler} {e : Exc} (hs : clientSetup x i "" b h = (.error e, h1)) :
    (Task.begin x i req b).call h = (.error e, h1) := by
  simp only [Task.call, exec, ret, begin_]
  rw [Py.bind_error hs]
  rfl

theorem setup_known {x : Ext} {i : String} {b : Obj} {h : Handler} (hi : i ≠ "") (hk : Dict.has h.issuer2rp i = true) :
    clientSetup x i "" b h = (.ok i, h) := by
  unfold clientSetup
  rw [if_neg (by simp [hi]), if_neg hi, Py.read_bind_run, if_pos hk]
  rfl

theorem setup_unknown {x : Ext} {i : String} {b : Obj} {h : Handler} (hi : i ≠ "") (hk : Dict.has h.issuer2rp i = false) :
    clientSetup x i "" b h = (initClient x i >>= fun c => adopt x c i b) h := by
  unfold clientSetup
  rw [if_neg (by simp [hi]), if_neg hi, Py.read_bind_run, if_neg (by simp [hk])]

/-- The steps from the new client on. -/
theorem ends_adopt {x : Ext} {i : String} {req b : Obj} {H : Hall} (ho : H.Ok) {r : Nat} (hr : ∀ j, Dict.get? H.rp j ≠ some r)
    (hlt : r < H.next) {h0 : Handler} (hsetup : clientSetup x i "" b h0 = adopt x (H.objs r) i b H.handler) :
    EndsAs (.begin x i req b) 5 (.discover r, H) ((Task.begin x i req b).call h0) := by
  unfold adopt at hsetup
  obtain ⟨d1, d2⟩ := onRef_new hr ho.keys (doProviderInfo x)
  have d3 := onRef_self r (doProviderInfo x) H
  have d4 := onRef_rp r (doProviderInfo x) H
  cases hp : (doProviderInfo x (H.objs r)).1 with
  | error e =>
    have hn : onNew (H.objs r) (doProviderInfo x) H.handler = (.error e, (onRef r (doProviderInfo x) H).2.handler) := by
      unfold onNew; rw [d2, hp]; rfl
    rw [Py.bind_error hn] at hsetup
    rw [begin_of_failed hsetup]
    refine (EndsAs.step (p' := (.done "" (.error e), (onRef r (doProviderInfo x) H).2)) ends_done ?_).more (by decide)
    show (go (Stage.note r) (onRef r (doProviderInfo x) H).1, _) = _
    rw [d1, hp]; rfl
  | ok k =>
    have hn : onNew (H.objs r) (doProviderInfo x) H.handler =
        (.ok (k, (doProviderInfo x (H.objs r)).2), (onRef r (doProviderInfo x) H).2.handler) := by
      unfold onNew; rw [d2, hp]; rfl
    rw [Py.bind_ok hn, Py.modify_bind_run] at hsetup
    refine EndsAs.step (p' := (.note r k, (onRef r (doProviderInfo x) H).2)) ?_ (by
      show (go (Stage.note r) (onRef r (doProviderInfo x) H).1, _) = _
      rw [d1, hp]; rfl)
    rw [← d3] at hsetup
    generalize hH1 : (onRef r (doProviderInfo x) H).2 = H1 at *
    refine EndsAs.step (p' := (.register r k, { H1 with hash2issuer := Dict.set H1.hash2issuer i (H1.objs r).ctx.issuer })) ?_ rfl
    have ho1 := ho.of d4
    have e2 : ({ H1.handler with hash2issuer := Dict.set H1.handler.hash2issuer i (H1.objs r).ctx.issuer } : Handler) =
      ({ H1 with hash2issuer := Dict.set H1.hash2issuer i (H1.objs r).ctx.issuer } : Hall).handler := rfl
    dsimp only at hsetup
    rw [e2] at hsetup
    generalize hH2 : ({ H1 with hash2issuer := Dict.set H1.hash2issuer i (H1.objs r).ctx.issuer } : Hall) = H2 at *
    have o2 : H2.objs = H1.objs := by rw [← hH2]
    have r2 : H2.rp = H1.rp ∧ H2.next = H1.next := by rw [← hH2]; exact ⟨rfl, rfl⟩
    have ho2 := ho1.of r2
    have hr2 : ∀ j, Dict.get? H2.rp j ≠ some r := by rw [r2.1, d4.1]; exact hr
    rw [← o2] at hsetup
    obtain ⟨g1, g2⟩ := onRef_new hr2 ho2.keys (Handler.register x b)
    have g3 := onRef_self r (Handler.register x b) H2
    have g4 := onRef_rp r (Handler.register x b) H2
    cases hq : (Handler.register x b (H2.objs r)).1 with
    | error e =>
      have hn : onNew (H2.objs r) (Handler.register x b) H2.handler = (.error e, (onRef r (Handler.register x b) H2).2.handler) := by
        unfold onNew; rw [g2, hq]; rfl
      rw [Py.bind_error hn] at hsetup
      rw [begin_of_failed hsetup]
      refine (EndsAs.step (p' := (.done "" (.error e), (onRef r (Handler.register x b) H2).2)) ends_done ?_).more (by decide)
      show (go (fun _ => Stage.keep r k) (onRef r (Handler.register x b) H2).1, _) = _
      rw [g1, hq]; rfl
    | ok u =>
      have hn : onNew (H2.objs r) (Handler.register x b) H2.handler =
          (.ok (u, (Handler.register x b (H2.objs r)).2), (onRef r (Handler.register x b) H2).2.handler) := by
        unfold onNew; rw [g2, hq]; rfl
      rw [Py.bind_ok hn, Py.modify_bind_run] at hsetup
      refine EndsAs.step (p' := (.keep r k, (onRef r (Handler.register x b) H2).2)) ?_ (by
        show (go (fun _ => Stage.keep r k) (onRef r (Handler.register x b) H2).1, _) = _
        rw [g1, hq]; rfl)
      rw [← g3] at hsetup
      generalize hH3 : (onRef r (Handler.register x b) H2).2 = H3 at *
      have ho3 := ho2.of g4
      have hr3 : ∀ j, Dict.get? H3.rp j ≠ some r := by rw [g4.1]; exact hr2
      have hlt3 : r < H3.next := by rw [g4.2, r2.2, d4.2]; exact hlt
      refine EndsAs.step (p' := (.work r k, { H3 with rp := Dict.set H3.rp k r })) ?_ rfl
      have e4 : ({ H3.handler with issuer2rp := Dict.set H3.handler.issuer2rp k (H3.objs r) } : Handler) =
          ({ H3 with rp := Dict.set H3.rp k r } : Hall).handler := by
        simp only [Hall.handler]
        congr 1
        induction H3.rp with
        | nil => rfl
        | cons p l ih =>
          simp only [List.map_cons, Dict.set]
          split
          · simp
          · simp only [List.map_cons, List.cons.injEq, true_and]; exact ih
      rw [e4, Py.pure_run] at hsetup
      rw [begin_of_setup hsetup]
      refine ends_work ⟨Dict.nodup_set ho3.keys _ _, ?_, ?_⟩ (Dict.get?_set_self _ _ _)
      · intro a c q ha hc
        simp only [Dict.get?_set] at ha hc
        split at ha <;> split at hc
        · next h1 h2 => exact h1.symm.trans h2
        · injection ha with ha; exact absurd (ha ▸ hc) (hr3 c)
        · injection hc with hc; exact absurd (hc ▸ ha) (hr3 a)
        · exact ho3.once a c q ha hc
      · intro a q ha
        simp only [Dict.get?_set] at ha
        split at ha
        · injection ha with ha; rw [← ha]; exact hlt3
        · exact ho3.made a q ha

/-- **C122** (alone).  A thread with nobody else at work ends, within eight steps, with the result and the handler of the call. -/
theorem C122_alone (t : Task) (H : Hall) (ho : H.Ok) (hi : t.issuer ≠ "") :
    ∃ name H', steps t 8 (.start, H) = (.done name (t.call H.handler).1, H') ∧ H'.handler = (t.call H.handler).2 := by
  show EndsAs t 8 (.start, H) (t.call H.handler)
  cases hr : Dict.get? H.rp t.issuer with
  | some r =>
    refine (EndsAs.step (p' := (.work r t.issuer, H)) ?_ (by simp [Rush.step, look, hr])).more (m := 8) (by decide : 2 ≤ 8)
    cases t with
    | use i m => exact ends_work ho hr
    | begin x i req b =>
      change i ≠ "" at hi
      change Dict.get? H.rp i = some r at hr
      show EndsAs _ 1 (.work r i, H) _
      rw [begin_of_setup (setup_known (h := H.handler) (b := b) (x := x) hi (by rw [has_handler]; rw [show Dict.get? H.rp i = some r from hr]; rfl))]
      exact ends_work ho hr
  | none =>
    cases t with
    | use i m =>
      have e : (Task.use i m).call H.handler = (.error .keyError, H.handler) := by
        simp only [Task.call]
        unfold onClient
        rw [get_handler, show Dict.get? H.rp i = none from hr]
        rfl
      rw [e]
      change Dict.get? H.rp i = none at hr
      exact (EndsAs.step (p' := (.done "" (.error .keyError), H)) ends_done (by simp [Rush.step, look, Task.issuer, hr])).more (by decide)
    | begin x i req b =>
      change i ≠ "" at hi
      change Dict.get? H.rp i = none at hr
      have hset := setup_unknown (x := x) (b := b) (h := H.handler) hi (by rw [has_handler]; rw [show Dict.get? H.rp i = none from hr]; rfl)
      refine EndsAs.step (p' := (.pick, H)) ?_ (by simp [Rush.step, look, Task.issuer, hr])
      have hfresh : ∀ j, Dict.get? H.rp j ≠ some H.next := fun j h => Nat.lt_irrefl _ (ho.made j _ h)
      cases hcfg : Dict.get? H.configs i with
      | some cc =>
        refine EndsAs.step (p' := (.make i, H)) ?_ (by simp [Rush.step, pickConfig, Dict.has_eq, hcfg])
        refine EndsAs.step (p' := (.discover H.next, { H with objs := put H.objs H.next (newClient x H.handler i cc), next := H.next + 1 })) ?_
          (by simp [Rush.step, makeClient, hcfg])
        have hic : initClient x i H.handler = (.ok (newClient x H.handler i cc), H.handler) := by
          unfold initClient; rw [show Dict.get? H.handler.configs i = some cc from hcfg]
        have hh : ({ H with objs := put H.objs H.next (newClient x H.handler i cc), next := H.next + 1 } : Hall).handler = H.handler := by
          simp only [Hall.handler]
          congr 1
          exact map_put_other _ _ _ _ fun p hp e => hfresh p.1 (by rw [Dict.get?_of_mem_nodup ho.keys hp, e])
        rw [Py.bind_ok hic] at hset
        refine ends_adopt (H := { H with objs := put H.objs H.next (newClient x H.handler i cc), next := H.next + 1 })
          ⟨ho.keys, ho.once, fun j r h => Nat.lt_succ_of_lt (ho.made j r h)⟩ hfresh (Nat.lt_succ_self _) ?_
        rw [hset, hh]
        simp only [put_same]
      | none =>
        cases hdef : Dict.get? H.configs "" with
        | none =>
          have hic : initClient x i H.handler = (.error .keyError, H.handler) := by
            unfold initClient
            rw [show Dict.get? H.handler.configs i = none from hcfg, show Dict.get? H.handler.configs "" = none from hdef]
          rw [Py.bind_error hic] at hset
          rw [begin_of_failed hset]
          exact (EndsAs.step (p' := (.done "" (.error .keyError), H)) ends_done
            (by simp [Rush.step, pickConfig, Dict.has_eq, hcfg, hdef])).more (by decide)
        | some cc =>
          let cc' : ClientConf := { cc with config := Dict.set cc.config "issuer" (.str i) }
          let H1 : Hall := { H with configs := Dict.set H.configs "" cc' }
          refine EndsAs.step (p' := (.make "", H1)) ?_ (by simp [Rush.step, pickConfig, Dict.has_eq, hcfg, hdef, H1, cc'])
          refine EndsAs.step (p' := (.discover H.next, { H1 with objs := put H.objs H.next (newClient x H1.handler "" cc'), next := H.next + 1 })) ?_
            (by simp [Rush.step, makeClient, H1])
          have hic : initClient x i H.handler = (.ok (newClient x H.handler "" cc'), H1.handler) := by
            unfold initClient
            rw [show Dict.get? H.handler.configs i = none from hcfg, show Dict.get? H.handler.configs "" = some cc from hdef]
            rfl
          have hh : ({ H1 with objs := put H.objs H.next (newClient x H1.handler "" cc'), next := H.next + 1 } : Hall).handler = H1.handler := by
            simp only [Hall.handler]
            congr 1
            exact map_put_other _ _ _ _ fun p hp e => hfresh p.1 (by rw [Dict.get?_of_mem_nodup ho.keys hp, e])
          rw [Py.bind_ok hic] at hset
          refine ends_adopt (H := { H1 with objs := put H.objs H.next (newClient x H1.handler "" cc'), next := H.next + 1 })
            ⟨ho.keys, ho.once, fun j r h => Nat.lt_succ_of_lt (ho.made j r h)⟩ hfresh (Nat.lt_succ_self _) ?_
          rw [hset, hh]
          simp only [put_same]
          rfl

/-! ## Known providers: as if one after another -/

/-- The handler after calls made one after another. -/
def afterwards : List Task → Handler → Handler
  | [], h => h
  | t :: l, h => afterwards l (t.call h).2

theorem afterwards_append (l : List Task) : ∀ (l' : List Task) (h : Handler), afterwards (l ++ l') h = afterwards l' (afterwards l h) := by
  induction l with
  | nil => intro l' h; rfl
  | cons t l ih => intro l' h; exact ih l' _

/-- How the threads stand, after the calls of the threads in `order`. -/
structure InOrder {ι : Type} (task : ι → Task) (H : Hall) (s : Crowd ι) (order : List ι) : Prop where
  same : s.task = task
  rp : s.hall.rp = H.rp ∧ s.hall.next = H.next
  stage : ∀ i, i ∉ order → s.stage i = .start ∨ ∃ r, Dict.get? H.rp (task i).issuer = some r ∧ s.stage i = .work r (task i).issuer
  nodup : order.Nodup
  handler : s.hall.handler = afterwards (order.map task) H.handler
  results : ∀ pre i post, order = pre ++ i :: post →
    s.stage i = .done (task i).issuer ((task i).call (afterwards (pre.map task) H.handler)).1

theorem call_known {t : Task} {H : Hall} (ho : H.Ok) (hi : t.issuer ≠ "") {r : Nat} (hr : Dict.get? H.rp t.issuer = some r) :
    (onRef r t.job H).1 = (t.call H.handler).1 ∧ (onRef r t.job H).2.handler = (t.call H.handler).2 := by
  have h := onRef_kept ho hr t.job
  cases t with
  | use i m => exact h
  | begin x i req b =>
    change i ≠ "" at hi
    change Dict.get? H.rp i = some r at hr
    rw [begin_of_setup (setup_known (h := H.handler) (b := b) (x := x) hi (by rw [has_handler, hr]; rfl))]
    exact h

theorem inOrder_step {ι : Type} [DecidableEq ι] {task : ι → Task} {H : Hall} (ho : H.Ok) (hi : ∀ i, (task i).issuer ≠ "")
    (hk : ∀ i, ∃ r, Dict.get? H.rp (task i).issuer = some r) {s : Crowd ι} {order : List ι} (h : InOrder task H s order) (i : ι) :
    ∃ order', InOrder task H (s.step i) order' := by
  by_cases hmem : i ∈ order
  · obtain ⟨pre, post, e⟩ := List.append_of_mem hmem
    have hd := h.results pre i post e
    have hstep : s.step i = s := by
      unfold Crowd.step
      rw [hd]
      simp only [Rush.step]
      have : (fun j => if j = i then Stage.done (task i).issuer ((task i).call (afterwards (pre.map task) H.handler)).1 else s.stage j) = s.stage := by
        funext j
        by_cases hj : j = i
        · subst hj; rw [if_pos rfl, hd]
        · rw [if_neg hj]
      rw [this]
    rw [hstep]
    exact ⟨order, h⟩
  · obtain ⟨r, hr⟩ := hk i
    have ht : s.task i = task i := by rw [h.same]
    have ho' := ho.of h.rp
    have hr' : Dict.get? s.hall.rp (task i).issuer = some r := by rw [h.rp.1]; exact hr
    rcases h.stage i hmem with hs | ⟨r', h1, h2⟩
    · refine ⟨order, ⟨h.same, ?_, ?_, h.nodup, ?_, ?_⟩⟩ <;> simp only [Crowd.step, hs, Rush.step, ht]
      · exact h.rp
      · intro j hj
        by_cases hji : j = i
        · subst hji
          refine .inr ⟨r, hr, ?_⟩
          rw [if_pos rfl]
          simp only [look, hr']
        · rw [if_neg hji]; exact h.stage j hj
      · exact h.handler
      · intro pre j post e
        have hji : j ≠ i := by rintro rfl; exact hmem (by rw [e]; simp)
        rw [if_neg hji]; exact h.results pre j post e
    · obtain rfl : r = r' := Option.some.inj (hr.symm.trans h1)
      obtain ⟨c1, c2⟩ := call_known ho' (hi i) hr'
      refine ⟨order ++ [i], ⟨h.same, ?_, ?_, ?_, ?_, ?_⟩⟩ <;> try simp only [Crowd.step, h2, Rush.step, ht]
      · have := onRef_rp r (task i).job s.hall
        exact ⟨this.1.trans h.rp.1, this.2.trans h.rp.2⟩
      · intro j hj
        have hji : j ≠ i := by rintro rfl; exact hj (by simp)
        rw [if_neg hji]
        exact h.stage j (fun hj' => hj (by simp [hj']))
      · rw [List.nodup_append]
        refine ⟨h.nodup, by simp, ?_⟩
        intro a ha b hb e
        simp only [List.mem_singleton] at hb
        exact hmem (by rw [← hb, ← e]; exact ha)
      · rw [c2, h.handler, List.map_append, afterwards_append]
        rfl
      · intro pre j post e
        rcases List.eq_nil_or_concat post with rfl | ⟨post', z, rfl⟩
        · have e' := List.append_inj' e rfl
          obtain ⟨rfl, e2⟩ := e'
          injection e2 with e2 _
          subst e2
          rw [if_pos rfl, c1, h.handler]
        · have e' : order ++ [i] = (pre ++ j :: post') ++ [z] := by rw [e]; simp
          obtain ⟨e1, e2⟩ := List.append_inj' e' rfl
          have hji : j ≠ i := by rintro rfl; exact hmem (by rw [e1]; simp)
          rw [if_neg hji]
          exact h.results pre j post' e1

/-- **C122** (providers that are known).  Any number of threads each begin a login or make a call at the client of a provider the
handler has a client for.  Whatever the schedule: the calls of the threads that are finished were in effect made one after the other,
in some order, each with the result it gave; the handler is the one they lead to.  So every login begun is there. -/
theorem C122_known_providers {ι : Type} [DecidableEq ι] (task : ι → Task) (H : Hall) (ho : H.Ok) (hi : ∀ i, (task i).issuer ≠ "")
    (hk : ∀ i, ∃ c, Dict.get? H.handler.issuer2rp (task i).issuer = some c) (sched : List ι) :
    ∃ order : List ι, order.Nodup ∧
      (∀ i, i ∈ order ↔ ∃ n res, ((Crowd.start task H).run sched).stage i = .done n res) ∧
      ((Crowd.start task H).run sched).hall.handler = afterwards (order.map task) H.handler ∧
      ∀ pre i post, order = pre ++ i :: post →
        ((Crowd.start task H).run sched).stage i = .done (task i).issuer ((task i).call (afterwards (pre.map task) H.handler)).1 := by
  have hk' : ∀ i, ∃ r, Dict.get? H.rp (task i).issuer = some r := by
    intro i
    obtain ⟨c, hc⟩ := hk i
    rw [get_handler] at hc
    cases hr : Dict.get? H.rp (task i).issuer with
    | none => rw [hr] at hc; cases hc
    | some r => exact ⟨r, rfl⟩
  have key : ∀ (sched : List ι) (s : Crowd ι) (order : List ι), InOrder task H s order → ∃ order', InOrder task H (s.run sched) order' := by
    intro sched
    induction sched with
    | nil => intro s order h; exact ⟨order, h⟩
    | cons i sched ih =>
      intro s order h
      obtain ⟨order', h'⟩ := inOrder_step ho hi hk' h i
      exact ih _ _ h'
  obtain ⟨order, h⟩ := key sched (Crowd.start task H) [] ⟨rfl, ⟨rfl, rfl⟩, fun _ _ => .inl rfl, by simp, rfl, by simp⟩
  refine ⟨order, h.nodup, fun i => ⟨fun hm => ?_, ?_⟩, h.handler, h.results⟩
  · obtain ⟨pre, post, e⟩ := List.append_of_mem hm
    exact ⟨_, _, h.results pre i post e⟩
  · rintro ⟨n, res, hd⟩
    refine Classical.byContradiction fun hm => ?_
    rcases h.stage i hm with hs | ⟨r, -, hs⟩ <;> rw [hs] at hd <;> cases hd

end Verif.Props
