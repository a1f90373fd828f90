import Verif.Model.Threads
import Verif.Lemmas.StateInterface
/-!
# Steps and whole calls agree; threads that touch different keys do not notice each other
-/

namespace Verif.Threads
open Verif Verif.StateInterface

variable {α β ι : Type}

theorem exec_andThen (p : Prog α) (f : α → Prog β) : ∀ db, (p.andThen f).exec db = (f (p.exec db).1).exec (p.exec db).2 := by
  induction p with
  | done r => intro db; rfl
  | get k next ih => intro db; exact ih _ db
  | set k v next ih => intro db; exact ih _
  | del k next ih =>
    intro db
    simp only [Prog.andThen, Prog.exec]
    split
    · exact ih _ _
    · exact ih _ _

theorem removeRefs_exec : ∀ (refs : Obj) (db : DB), (removeRefsProg refs).exec db = mapOut (fun _ => .unit) (removeRefs refs db) := by
  intro refs
  induction refs with
  | nil => intro db; rfl
  | cons p refs ih =>
    obtain ⟨xt, v⟩ := p
    intro db
    unfold removeRefsProg removeRefs
    cases XTyp.ofName? xt with
    | none => rfl
    | some x =>
      cases v with
      | str s =>
        simp only [Prog.exec]
        split
        · exact ih _
        · rfl
      | _ => rfl

/-- The operations of a call, made one after another, are the call. -/
theorem call_exec (op : Op) (db : DB) : (callProg op).exec db = StateInterface.step op db := by
  cases op with
  | create iss key rnd =>
    simp only [callProg, StateInterface.step, createProg, createState]
    split
    · rfl
    · split <;> rfl
  | store item t key =>
    simp only [callProg, StateInterface.step, storeProg, storeItem, Prog.exec, getState, readState]
    cases Dict.get? db key with
    | none => rfl
    | some v =>
      cases v with
      | doc o => rfl
      | raw s =>
        by_cases hs : s = ""
        · simp [hs, Prog.exec, mapOut]
        · simp [hs, Prog.exec, mapOut]
  | bind x v key =>
    simp only [callProg, StateInterface.step, bindProg, storeX2State, Prog.exec]
    cases Dict.get? (Dict.set db (indexKey x v) (DbVal.raw key)) (refKey key) with
    | none => rfl
    | some v => cases v <;> rfl
  | remove key =>
    simp only [callProg, StateInterface.step, removeProg, removeState, Prog.exec]
    by_cases h : Dict.has db key = true
    · simp only [h, if_true, Prog.exec]
      cases Dict.get? (Dict.del db key) (refKey key) with
      | none => rfl
      | some v =>
        cases v with
        | raw s => rfl
        | doc refs => exact removeRefs_exec _ _
    · simp [h, Prog.exec, mapOut]
  | item t key =>
    simp only [callProg, StateInterface.step, itemProg, getItem, getState, Prog.exec, readState]
    cases Dict.get? db key with
    | none => rfl
    | some v =>
      cases v with
      | doc o =>
        simp only [Prog.exec]
        cases asItem (Dict.get? (Msg.ofDict o) t) <;> rfl
      | raw s => by_cases hs : s = "" <;> simp [hs, Prog.exec, mapOut]
  | issuer key =>
    simp only [callProg, StateInterface.step, issuerProg, getIss, getState, Prog.exec, readState]
    cases Dict.get? db key with
    | none => rfl
    | some v =>
      cases v with
      | doc o =>
        simp only [Prog.exec]
        split
        · rfl
        · cases Dict.getItem (Msg.ofDict o) "iss" <;> rfl
      | raw s => by_cases hs : s = "" <;> simp [hs, Prog.exec, mapOut]
  | lookup x v =>
    simp only [callProg, StateInterface.step, lookupProg, getStateByX, Prog.exec]
    cases Dict.get? db (indexKey x v) with
    | none => rfl
    | some v =>
      cases v with
      | doc o => rfl
      | raw s => by_cases hs : s = "" <;> simp [hs, Prog.exec, mapOut]

/-- A thread that is alone does what the calls do. -/
theorem thread_exec : ∀ (ops : List Op) (db : DB), (threadProg ops).exec db = StateInterface.run ops db := by
  intro ops
  induction ops with
  | nil => intro db; rfl
  | cons op ops ih =>
    intro db
    simp only [threadProg, exec_andThen, call_exec, ih, Prog.exec, StateInterface.run]

/-! ## Who touches what -/

/-- All keys `p` uses, when it runs alone from `db`, are among `own`. -/
def Touches (own : String → Prop) : Prog α → DB → Prop
  | .done _, _ => True
  | .get k next, db => own k ∧ Touches own (next (Dict.get? db k)) db
  | .set k v next, db => own k ∧ Touches own next (Dict.set db k v)
  | .del k next, db => own k ∧ if Dict.has db k then Touches own (next true) (Dict.del db k) else Touches own (next false) db

theorem touches_andThen {own : String → Prop} (p : Prog α) (f : α → Prog β) : ∀ db, Touches own p db →
    Touches own (f (p.exec db).1) (p.exec db).2 → Touches own (p.andThen f) db := by
  induction p with
  | done r => intro db _ h; exact h
  | get k next ih => intro db h1 h2; exact ⟨h1.1, ih _ db h1.2 h2⟩
  | set k v next ih => intro db h1 h2; exact ⟨h1.1, ih _ h1.2 h2⟩
  | del k next ih =>
    intro db h1 h2
    obtain ⟨h0, h1⟩ := h1
    refine ⟨h0, ?_⟩
    simp only [Prog.exec] at h2
    split
    · next hk => rw [if_pos hk] at h1; simp only [if_pos hk] at h2; exact ih _ _ h1 h2
    · next hk => rw [if_neg hk] at h1; simp only [if_neg hk] at h2; exact ih _ _ h1 h2

theorem touches_step {own : String → Prop} {p : Prog α} {db : DB} (h : Touches own p db) :
    Touches own (p.step db).1 (p.step db).2 := by
  cases p with
  | done r => exact h
  | get k next => exact h.2
  | set k v next => exact h.2
  | del k next =>
    obtain ⟨_, h⟩ := h
    simp only [Prog.step]
    split
    · next hk => rw [if_pos hk] at h; exact h
    · next hk => rw [if_neg hk] at h; exact h

/-- A step outside `own` is not seen there. -/
theorem step_outside {own : String → Prop} {p : Prog α} {db : DB} (h : Touches own p db) {k : String} (hk : ¬ own k) :
    Dict.get? (p.step db).2 k = Dict.get? db k := by
  cases p with
  | done r => rfl
  | get k' next => rfl
  | set k' v next => exact Dict.get?_set_ne _ _ (fun e => hk (e ▸ h.1))
  | del k' next =>
    simp only [Prog.step]
    split
    · exact Dict.get?_del_ne _ (fun e => hk (e ▸ h.1))
    · rfl

/-- Stores that agree on `own` are the same for who touches only `own`. -/
theorem step_agree {own : String → Prop} {p : Prog α} {db db' : DB} (h : Touches own p db)
    (ha : ∀ k, own k → Dict.get? db' k = Dict.get? db k) :
    (p.step db').1 = (p.step db).1 ∧ (∀ k, own k → Dict.get? (p.step db').2 k = Dict.get? (p.step db).2 k) ∧
      ∀ k, ¬ own k → Dict.get? (p.step db').2 k = Dict.get? db' k := by
  cases p with
  | done r => exact ⟨rfl, ha, fun _ _ => rfl⟩
  | get k next => exact ⟨by simp only [Prog.step]; rw [ha k h.1], ha, fun _ _ => rfl⟩
  | set k v next =>
    refine ⟨rfl, fun q hq => ?_, fun q hq => Dict.get?_set_ne _ _ (fun e => hq (e ▸ h.1))⟩
    simp only [Prog.step, Dict.get?_set]
    split
    · rfl
    · exact ha q hq
  | del k next =>
    have e : Dict.has db' k = Dict.has db k := by rw [Dict.has_eq, Dict.has_eq, ha k h.1]
    simp only [Prog.step, e]
    by_cases hb : Dict.has db k = true
    · simp only [hb, if_true]
      refine ⟨trivial, fun q hq => ?_, fun q hq => Dict.get?_del_ne _ (fun e => hq (e ▸ h.1))⟩
      rw [Dict.get?_del, Dict.get?_del]
      split
      · rfl
      · exact ha q hq
    · simp only [Bool.not_eq_true] at hb
      simp only [hb]
      exact ⟨rfl, ha, fun _ _ => rfl⟩

theorem alone_succ (n : Nat) : ∀ (p : Prog α) (db : DB),
    p.alone (n + 1) db = ((p.alone n db).1.step (p.alone n db).2) := by
  induction n with
  | zero => intro p db; rfl
  | succ n ih => intro p db; exact ih _ _

theorem touches_alone {own : String → Prop} (n : Nat) : ∀ {p : Prog α} {db : DB}, Touches own p db →
    Touches own (p.alone n db).1 (p.alone n db).2 := by
  induction n with
  | zero => intro p db h; exact h
  | succ n ih => intro p db h; exact ih (touches_step h)

/-- What the threads of a system and its store look like from each thread. -/
theorem run_agree [DecidableEq ι] {own : ι → String → Prop} (hd : ∀ i j k, i ≠ j → own i k → ¬ own j k) (sched : List ι) :
    ∀ (s : System ι α) (ps : ι → Prog α) (dbs : ι → DB),
    (∀ i, s.threads i = ps i) → (∀ i, Touches (own i) (ps i) (dbs i)) → (∀ i k, own i k → Dict.get? s.db k = Dict.get? (dbs i) k) →
    (∀ i, (s.run sched).threads i = ((ps i).alone (sched.count i) (dbs i)).1) ∧
    (∀ i k, own i k → Dict.get? (s.run sched).db k = Dict.get? ((ps i).alone (sched.count i) (dbs i)).2 k) ∧
    (∀ k, (∀ i, ¬ own i k) → Dict.get? (s.run sched).db k = Dict.get? s.db k) := by
  induction sched with
  | nil => intro s ps dbs h1 _ h3; exact ⟨h1, h3, fun _ _ => rfl⟩
  | cons j sched ih =>
    intro s ps dbs h1 h2 h3
    obtain ⟨g1, g2, g3⟩ := step_agree (h2 j) (h3 j)
    obtain ⟨a1, a2, a3⟩ := ih (s.step j) (fun i => if i = j then ((ps i).step (dbs i)).1 else ps i)
      (fun i => if i = j then ((ps i).step (dbs i)).2 else dbs i)
      (by
        intro i
        simp only [System.step]
        by_cases e : i = j
        · subst e; rw [if_pos rfl, if_pos rfl, h1]; exact g1
        · rw [if_neg e, if_neg e]; exact h1 i)
      (by
        intro i
        by_cases e : i = j
        · simp only [if_pos e]; exact touches_step (h2 i)
        · simp only [if_neg e]; exact h2 i)
      (by
        intro i k hk
        simp only [System.step, h1]
        by_cases e : i = j
        · subst e; rw [if_pos rfl]; exact g2 k hk
        · rw [if_neg e, g3 k (hd i j k e hk)]; exact h3 i k hk)
    have hc : ∀ i, List.count i (j :: sched) = List.count i sched + if i = j then 1 else 0 := by
      intro i
      rw [List.count_cons]
      by_cases e : i = j
      · subst e; simp
      · have : ¬ j = i := fun h => e h.symm
        simp [e, this]
    have hp : ∀ i, (ps i).alone (List.count i (j :: sched)) (dbs i) =
        (if i = j then ((ps i).step (dbs i)).1 else ps i).alone (List.count i sched) (if i = j then ((ps i).step (dbs i)).2 else dbs i) := by
      intro i
      rw [hc]
      by_cases e : i = j
      · simp only [if_pos e]; rfl
      · simp only [if_neg e]; rfl
    refine ⟨fun i => ?_, fun i k hk => ?_, fun k hk => ?_⟩
    · rw [hp]; exact a1 i
    · rw [hp]; exact a2 i k hk
    · show Dict.get? ((s.step j).run sched).db k = _
      rw [a3 k hk]
      simp only [System.step, h1]
      exact g3 k (hk j)

/-! ## Programs end -/

theorem alone_done (r : α) : ∀ n db, (Prog.done r).alone n db = (.done r, db) := by
  intro n
  induction n with
  | zero => intro db; rfl
  | succ n ih => intro db; exact ih db

/-- A program that stays the same with nothing left to do has its result. -/
theorem alone_of_done {p : Prog α} {r : α} : ∀ n db, (p.alone n db).1 = .done r → p.exec db = (r, (p.alone n db).2) := by
  intro n
  induction n generalizing p with
  | zero => intro db h; simp only [Prog.alone] at h ⊢; subst h; rfl
  | succ n ih =>
    intro db h
    have := ih _ h
    simp only [Prog.alone]
    rw [← this]
    cases p with
    | done r => rfl
    | get k next => rfl
    | set k v next => rfl
    | del k next => simp only [Prog.step, Prog.exec]; split <;> rfl

theorem alone_ends (p : Prog α) : ∀ db, ∃ n, ∀ m, n ≤ m → p.alone m db = (.done (p.exec db).1, (p.exec db).2) := by
  induction p with
  | done r => intro db; exact ⟨0, fun m _ => alone_done r m db⟩
  | get k next ih =>
    intro db
    obtain ⟨n, hn⟩ := ih (Dict.get? db k) db
    refine ⟨n + 1, fun m hm => ?_⟩
    cases m with
    | zero => omega
    | succ m => exact hn m (by omega)
  | set k v next ih =>
    intro db
    obtain ⟨n, hn⟩ := ih (Dict.set db k v)
    refine ⟨n + 1, fun m hm => ?_⟩
    cases m with
    | zero => omega
    | succ m => exact hn m (by omega)
  | del k next ih =>
    intro db
    by_cases hk : Dict.has db k = true
    · obtain ⟨n, hn⟩ := ih true (Dict.del db k)
      refine ⟨n + 1, fun m hm => ?_⟩
      cases m with
      | zero => omega
      | succ m => simp only [Prog.alone, Prog.step, Prog.exec, hk, if_true]; exact hn m (by omega)
    · simp only [Bool.not_eq_true] at hk
      obtain ⟨n, hn⟩ := ih false db
      refine ⟨n + 1, fun m hm => ?_⟩
      cases m with
      | zero => omega
      | succ m =>
        simp only [Prog.alone, Prog.step, Prog.exec, hk]
        exact hn m (by omega)

/-- A crash in a sequence: in the first part, or in the rest after all of the first. -/
theorem alone_andThen (p : Prog α) (f : α → Prog β) : ∀ n db, (∃ m, ((p.andThen f).alone n db).2 = (p.alone m db).2) ∨
    ∃ m, ((p.andThen f).alone n db).2 = ((f (p.exec db).1).alone m (p.exec db).2).2 := by
  intro n
  induction n generalizing p with
  | zero => intro db; exact .inl ⟨0, rfl⟩
  | succ n ih =>
    intro db
    cases p with
    | done r => exact .inr ⟨n + 1, rfl⟩
    | get k next =>
      rcases ih (next (Dict.get? db k)) db with ⟨m, hm⟩ | ⟨m, hm⟩
      · exact .inl ⟨m + 1, hm⟩
      · exact .inr ⟨m, hm⟩
    | set k v next =>
      rcases ih next (Dict.set db k v) with ⟨m, hm⟩ | ⟨m, hm⟩
      · exact .inl ⟨m + 1, hm⟩
      · exact .inr ⟨m, hm⟩
    | del k next =>
      by_cases hk : Dict.has db k = true
      · rcases ih (next true) (Dict.del db k) with ⟨m, hm⟩ | ⟨m, hm⟩
        · exact .inl ⟨m + 1, by simpa [Prog.andThen, Prog.alone, Prog.step, hk] using hm⟩
        · exact .inr ⟨m, by simpa [Prog.andThen, Prog.alone, Prog.step, Prog.exec, hk] using hm⟩
      · rcases ih (next false) db with ⟨m, hm⟩ | ⟨m, hm⟩
        · exact .inl ⟨m + 1, by simpa [Prog.andThen, Prog.alone, Prog.step, hk] using hm⟩
        · exact .inr ⟨m, by simpa [Prog.andThen, Prog.alone, Prog.step, Prog.exec, hk] using hm⟩

end Verif.Threads
