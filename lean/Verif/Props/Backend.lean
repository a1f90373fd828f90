import Verif.Model.Backend
import Verif.Lemmas.Threads
import Verif.Props.InFlight
/-!
# C91: the session store can be kept elsewhere
-/

namespace Verif.Props
open Verif Verif.Service Verif.Handler Verif.StateInterface Verif.Threads Verif.Backend

/-! ## Specification -/

/-- A mapping that behaves as dictionaries do. -/
structure Lawful {σ : Type} (m : Mapping σ) : Prop where
  get_set : ∀ s k v j, m.get (m.set s k v) j = if k = j then some v else m.get s j
  get_del : ∀ s k j, m.get (m.del s k).2 j = if k = j then none else m.get s j
  del_known : ∀ s k, (m.del s k).1 = (m.get s k).isSome

/-- A mapping that behaves so, but does not mind deleting what it does not have. -/
structure Lenient {σ : Type} (m : Mapping σ) : Prop where
  get_set : ∀ s k v j, m.get (m.set s k v) j = if k = j then some v else m.get s j
  get_del : ∀ s k j, m.get (m.del s k).2 j = if k = j then none else m.get s j
  del_any : ∀ s k, (m.del s k).1 = true

/-- The mapping and the dictionary have the same content. -/
def Same {σ : Type} (m : Mapping σ) (s : σ) (db : DB) : Prop := ∀ k, m.get s k = Dict.get? db k

/-- The call removes a session. -/
def Removes : Op → Prop
  | .remove _ => True
  | _ => False

/-- Dictionaries are lawful. -/
theorem dict_lawful : Lawful dict where
  get_set := fun s k v j => Dict.get?_set s k v j
  get_del := fun s k j => by
    simp only [dict]
    split
    · exact Dict.get?_del s k j
    · next h =>
      by_cases e : k = j
      · subst e
        rw [if_pos rfl]
        rw [Dict.has_eq] at h
        cases hg : Dict.get? s k with
        | none => rfl
        | some v => rw [hg] at h; exact absurd rfl h
      · rw [if_neg e]
  del_known := fun s k => by
    simp only [dict]
    rw [← Dict.has_eq]
    split
    · next h => exact h.symm
    · next h => simpa using h

/-- `InMemoryStateDataBase` is lenient. -/
theorem inMemory_lenient : Lenient inMemory where
  get_set := fun s k v j => Dict.get?_set s k v j
  get_del := fun s k j => by
    have := dict_lawful.get_del s k j
    simp only [dict, inMemory] at this ⊢
    split <;> next h => simp only [h] at this; exact this
  del_any := fun s k => by
    simp only [inMemory]
    split <;> rfl

variable {σ : Type} {m : Mapping σ}

theorem same_set (h : ∀ s k v j, m.get (m.set s k v) j = if k = j then some v else m.get s j) {s : σ} {db : DB} (hs : Same m s db)
    (k : String) (v : DbVal) : Same m (m.set s k v) (Dict.set db k v) := by
  intro j
  rw [h, Dict.get?_set, hs j]

theorem same_del (h : ∀ s k j, m.get (m.del s k).2 j = if k = j then none else m.get s j) {s : σ} {db : DB} (hs : Same m s db)
    (k : String) : Same m (m.del s k).2 (dict.del db k).2 := by
  intro j
  rw [h, hs j]
  exact (dict_lawful.get_del db k j).symm

theorem exec_dict {α : Type} (p : Prog α) : ∀ db, runOn dict p db = p.exec db := by
  induction p with
  | done r => intro db; rfl
  | get k next ih => intro db; exact ih _ db
  | set k v next ih => intro db; exact ih _
  | del k next ih =>
    intro db
    simp only [runOn, Prog.exec, dict]
    split
    · exact ih _ _
    · exact ih _ _

theorem runOn_lawful {α : Type} (hm : Lawful m) (p : Prog α) : ∀ (s : σ) (db : DB), Same m s db →
    (runOn m p s).1 = (p.exec db).1 ∧ Same m (runOn m p s).2 (p.exec db).2 := by
  induction p with
  | done r => intro s db hs; exact ⟨rfl, hs⟩
  | get k next ih =>
    intro s db hs
    simp only [runOn, Prog.exec]
    rw [hs k]
    exact ih _ s db hs
  | set k v next ih => intro s db hs; exact ih _ _ (same_set hm.get_set hs k v)
  | del k next ih =>
    intro s db hs
    have hd := same_del hm.get_del hs k
    simp only [runOn, Prog.exec]
    rw [hm.del_known, hs k, ← Dict.has_eq]
    simp only [dict] at hd
    by_cases h : Dict.has db k = true
    · rw [if_pos h] at hd ⊢
      rw [h]
      exact ih _ _ _ hd
    · rw [if_neg h] at hd ⊢
      have h' : Dict.has db k = false := by simpa using h
      rw [h']
      exact ih _ _ _ hd

/-! ## C91 -/

/-- **C91**.  Kept in any mapping that behaves as dictionaries do, and starting with the same content, the session store
returns the same for every history of calls, with the same exceptions, and has the same content afterwards. -/
theorem C91_any_mapping (hm : Lawful m) : ∀ (ops : List Op) (s : σ) (db : DB), Same m s db →
    (history m ops s).1 = (StateInterface.run ops db).1 ∧ Same m (history m ops s).2 (StateInterface.run ops db).2
  | [], _, _, hs => ⟨rfl, hs⟩
  | op :: ops, s, db, hs => by
    obtain ⟨h1, h2⟩ := runOn_lawful hm (callProg op) s db hs
    rw [call_exec] at h1 h2
    obtain ⟨g1, g2⟩ := C91_any_mapping hm ops _ _ h2
    refine ⟨?_, g2⟩
    show (runOn m (callProg op) s).1 :: (history m ops (runOn m (callProg op) s).2).1 = _
    rw [h1, g1]
    rfl

theorem removeRefs_lenient (hm : Lenient m) : ∀ (refs : Obj) (s : σ) (db : DB), Same m s db →
    ((removeRefsProg refs).exec db).1 = .ok .unit →
    (runOn m (removeRefsProg refs) s).1 = .ok .unit ∧ Same m (runOn m (removeRefsProg refs) s).2 ((removeRefsProg refs).exec db).2 := by
  intro refs
  induction refs with
  | nil => intro s db hs _; exact ⟨rfl, hs⟩
  | cons p refs ih =>
    obtain ⟨xt, v⟩ := p
    intro s db hs hok
    unfold removeRefsProg at hok ⊢
    split at hok
    · next x t hx =>
      simp only [Prog.exec] at hok
      split at hok
      · next hh =>
        simp only [runOn, hm.del_any, if_true, Prog.exec, hh]
        refine ih _ _ ?_ (by simpa using hok)
        have := same_del hm.get_del hs (indexKey x t)
        simp only [dict, hh, if_true] at this
        exact this
      · cases hok
    · cases hok

/-- One call on a lenient mapping: as on a dictionary if that succeeds, or if nothing is removed. -/
theorem call_lenient (hm : Lenient m) (op : Op) (s : σ) (db : DB) (hs : Same m s db)
    (h : ¬ Removes op ∨ ∃ o, (StateInterface.step op db).1 = .ok o) :
    (runOn m (callProg op) s).1 = (StateInterface.step op db).1 ∧
      Same m (runOn m (callProg op) s).2 (StateInterface.step op db).2 := by
  rw [← call_exec] at h ⊢
  cases op with
  | create iss key rnd =>
    simp only [callProg, createProg]
    split
    · exact ⟨rfl, same_set hm.get_set hs _ _⟩
    · split
      · exact ⟨rfl, hs⟩
      · exact ⟨rfl, same_set hm.get_set hs _ _⟩
  | store item t key =>
    simp only [callProg, storeProg, runOn, Prog.exec]
    rw [hs key]
    split
    · exact ⟨rfl, same_set hm.get_set hs _ _⟩
    · exact ⟨rfl, same_set hm.get_set hs _ _⟩
    · exact ⟨rfl, hs⟩
  | bind x v key =>
    have h1 := same_set hm.get_set hs (indexKey x v) (.raw key)
    simp only [callProg, bindProg, runOn, Prog.exec]
    rw [h1 (refKey key)]
    split
    · exact ⟨rfl, same_set hm.get_set h1 _ _⟩
    · exact ⟨rfl, same_set hm.get_set h1 _ _⟩
    · exact ⟨rfl, h1⟩
  | remove key =>
    rcases h with h | ⟨o, ho⟩
    · exact absurd trivial h
    · simp only [callProg, removeProg, Prog.exec] at ho ⊢
      split at ho
      · next hh =>
        have h1 := same_del hm.get_del hs key
        simp only [dict, hh, if_true] at h1
        simp only [hh, if_true, Prog.exec] at ho ⊢
        simp only [runOn, hm.del_any, if_true]
        rw [h1 (refKey key)]
        split at ho
        · cases ho
        · cases ho
        · next refs hr =>
          have ho' : ((removeRefsProg refs).exec (Dict.del db key)).1 = .ok .unit := by
            rw [removeRefs_exec] at ho ⊢
            rcases hx : removeRefs refs (Dict.del db key) with ⟨r, d⟩
            rw [hx] at ho
            cases r with
            | ok u => rfl
            | error e => cases ho
          rw [ho']
          exact removeRefs_lenient hm refs _ _ h1 ho'
      · cases ho
  | item t key =>
    simp only [callProg, itemProg, runOn, Prog.exec]
    rw [hs key]
    split <;> exact ⟨rfl, hs⟩
  | issuer key =>
    simp only [callProg, issuerProg, runOn, Prog.exec]
    rw [hs key]
    split <;> exact ⟨rfl, hs⟩
  | lookup x v =>
    simp only [callProg, lookupProg, runOn, Prog.exec]
    rw [hs (indexKey x v)]
    split <;> exact ⟨rfl, hs⟩

/-- **C91**, for `InMemoryStateDataBase` and all mappings that do not mind deleting what they do not have: as on a dictionary
for every history whose removals succeed there (the other calls may fail or not). -/
theorem C91_in_memory_partial (hm : Lenient m) : ∀ (ops : List Op) (s : σ) (db : DB), Same m s db →
    (∀ p ∈ ops.zip (StateInterface.run ops db).1, Removes p.1 → ∃ o, p.2 = .ok o) →
    (history m ops s).1 = (StateInterface.run ops db).1 ∧ Same m (history m ops s).2 (StateInterface.run ops db).2
  | [], _, _, hs, _ => ⟨rfl, hs⟩
  | op :: ops, s, db, hs, hok => by
    have hrun : StateInterface.run (op :: ops) db = ((StateInterface.step op db).1 :: (StateInterface.run ops (StateInterface.step op db).2).1,
        (StateInterface.run ops (StateInterface.step op db).2).2) := rfl
    rw [hrun] at hok ⊢
    have h1 : ¬ Removes op ∨ ∃ o, (StateInterface.step op db).1 = .ok o := by
      by_cases hr : Removes op
      · exact Or.inr (hok (op, _) (by simp) hr)
      · exact Or.inl hr
    obtain ⟨a1, a2⟩ := call_lenient hm op s db hs h1
    obtain ⟨g1, g2⟩ := C91_in_memory_partial hm ops _ _ a2 (fun p hp => hok p (by simp [hp]))
    refine ⟨?_, g2⟩
    show (runOn m (callProg op) s).1 :: (history m ops (runOn m (callProg op) s).2).1 = _
    rw [a1, g1]

/-- Whatever a lenient mapping had, a session that was removed is not there afterwards. -/
theorem C91_in_memory_removes (hm : Lenient m) (s : σ) (k : String) :
    m.get (runOn m (callProg (.remove k)) s).2 k = none := by
  have key : ∀ (refs : Obj) (s : σ), m.get s k = none → m.get (runOn m (removeRefsProg refs) s).2 k = none := by
    intro refs
    induction refs with
    | nil => intro s h; exact h
    | cons p refs ih =>
      obtain ⟨xt, v⟩ := p
      intro s h
      unfold removeRefsProg
      split
      · simp only [runOn, hm.del_any, if_true]
        refine ih _ ?_
        rw [hm.get_del]
        split
        · rfl
        · exact h
      · exact h
  have h0 : m.get (m.del s k).2 k = none := by rw [hm.get_del, if_pos rfl]
  simp only [callProg, removeProg, runOn, hm.del_any, if_true]
  split
  · exact h0
  · exact h0
  · exact key _ _ h0

/-- The full claim is violated: with `InMemoryStateDataBase` a session that is not there can be removed without an error (here
for the second time), while the dictionary raises `KeyError`. -/
theorem C91_in_memory_violated : ∃ ops : List Op,
    (history inMemory ops []).1 = [.ok (.key "s1"), .ok .unit, .ok .unit, .ok .unit] ∧
    (StateInterface.run ops []).1 = [.ok (.key "s1"), .ok .unit, .ok .unit, .error .keyError] :=
  ⟨[.create "https://op" "s1" "", .bind .nonce "n1" "s1", .remove "s1", .remove "s1"], by rfl, by rfl⟩

theorem process_handler (x : Ext) (call : Call) (db : DB) (h : Verif.Handler) :
    (Process.exec x call { stateDb := db, handler := h }).handler = (Handler.exec x call h).2 := rfl

theorem process_store (x : Ext) (call : Call) (db : DB) (h : Verif.Handler) :
    (Process.exec x call { stateDb := db, handler := h }).stateDb = db := rfl

/-- In a login begun on a new handler the session is known. -/
theorem begun_in_memory : (sessionIssuer (Handler.exec (World.ext 1000 World.s1 "n1" "") (.begin "https://op.example" "" [] []) World.handler).2
    World.s1).isOk = true := by rfl

/-- The full claim is violated: the store given to the handler is not used.  After a restart with the same store the session
is not known any more, whatever the store. -/
theorem C91_state_db_unused_violated (db : DB) : ∃ (x : Ext) (call : Call) (p : Process), p.stateDb = db ∧
    (sessionIssuer p.handler World.s1).isOk = false ∧
    (sessionIssuer (p.exec x call).handler World.s1).isOk = true ∧
    (p.exec x call).stateDb = db ∧
    (sessionIssuer ((p.exec x call).restart World.handler).handler World.s1).isOk = false := by
  refine ⟨World.ext 1000 World.s1 "n1" "", .begin "https://op.example" "" [] [], { stateDb := db, handler := World.handler }, rfl,
    by rfl, ?_, process_store _ _ _ _, by rfl⟩
  rw [process_handler]
  exact begun_in_memory

/-! ## Non-vacuity -/

/-- A list of assignments and deletions as a mapping, such as a log on disk. -/
def journal : Mapping (List (String × Option DbVal)) where
  get := fun l k => ((l.find? (fun p => p.1 == k)).map Prod.snd).join
  set := fun l k v => (k, some v) :: l
  del := fun l k => ((((l.find? (fun p => p.1 == k)).map Prod.snd).join).isSome, (k, none) :: l)

theorem journal_lawful : Lawful journal where
  get_set := fun s k v j => by
    by_cases h : k = j <;> simp [journal, h]
  get_del := fun s k j => by
    by_cases h : k = j <;> simp [journal, h]
  del_known := fun s k => rfl

/-- The journal gives what the dictionary gives, errors as well. -/
example : (history journal [.create "https://op" "s1" "", .store [("code", .str "c")] "auth_response" "s1", .bind .nonce "n1" "s1",
      .lookup .nonce "n1", .remove "s1", .remove "s1"] []).1 =
    [.ok (.key "s1"), .ok .unit, .ok .unit, .ok (.ptr (.raw "s1")), .ok .unit, .error .keyError] :=
  (C91_any_mapping journal_lawful _ [] [] (fun _ => rfl)).1.trans (by rfl)

/-- So does `InMemoryStateDataBase`, when what is removed is there. -/
example : (history inMemory [.create "https://op" "s1" "", .item "auth_response" "s1", .bind .nonce "n1" "s1", .remove "s1"] []).1 =
    [.ok (.key "s1"), .error .keyError, .ok .unit, .ok .unit] :=
  (C91_in_memory_partial inMemory_lenient _ [] [] (fun _ => rfl) (by
    intro p hp hr
    have hp : p ∈ [(Op.create "https://op" "s1" "", Except.ok (Out.key "s1")), (.item "auth_response" "s1", .error .keyError),
      (.bind .nonce "n1" "s1", .ok .unit), (.remove "s1", .ok .unit)] := hp
    simp only [List.mem_cons, List.not_mem_nil, or_false] at hp
    rcases hp with rfl | rfl | rfl | rfl
    · exact ⟨_, rfl⟩
    · exact hr.elim
    · exact ⟨_, rfl⟩
    · exact ⟨_, rfl⟩)).1.trans (by rfl)

end Verif.Props
