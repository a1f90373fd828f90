import Verif.Lemmas.Threads
import Verif.Lemmas.StoreHistory
/-!
# C88: threads working on different sessions do not notice each other; C89: crashes

The store, one dictionary operation at a time (`Verif.Model.Threads`).
-/

namespace Verif.Props
open Verif Verif.StateInterface Verif.Threads Verif.Spec.Store

/-! ## Specification -/

/-- `op` is a call for session `k`, with index values (nonces, logout states, session ids, subjects) of `V` only. -/
def CallFor (k : String) (V : XTyp → String → Prop) : Op → Prop
  | .create _ key rnd => (if key = "" then rnd else key) = k
  | .store _ _ k' => k' = k
  | .bind x v k' => k' = k ∧ V x v
  | .remove k' => k' = k
  | .item _ k' => k' = k
  | .issuer k' => k' = k
  | .lookup x v => V x v

/-- What the store remembers to have been bound to session `k` is in `V`. -/
def BoundIn (db : DB) (k : String) (V : XTyp → String → Prop) : Prop :=
  ∀ refs, Dict.get? db ("ref" ++ k ++ "ref") = some (.doc refs) → ∀ (x : XTyp) (v : String), (x.name, Val.str v) ∈ refs → V x v

/-- Several threads, each at work on a session of its own with values of its own. -/
structure OwnSessions {ι : Type} (K : String → Prop) (key : ι → String) (V : ι → XTyp → String → Prop) (ops : ι → List Op) (db : DB) : Prop where
  known : ∀ i, K (key i)
  sessions : ∀ i j, key i = key j → i = j
  values : ∀ i j x v, V i x v → V j x v → i = j
  calls : ∀ i, ∀ op ∈ ops i, CallFor (key i) (V i) op
  bound : ∀ i, BoundIn db (key i) (V i)

/-! ## Steps -/

/-- The keys of the dictionary that belong to a session. -/
def Own (k : String) (V : XTyp → String → Prop) (q : String) : Prop :=
  q = k ∨ q = refKey k ∨ ∃ x v, V x v ∧ q = indexKey x v

theorem ofName?_eq {s : String} {x : XTyp} (h : XTyp.ofName? s = some x) : s = x.name := by
  unfold XTyp.ofName? at h
  split at h
  · next e => cases h; exact e
  · split at h
    · next e => cases h; exact e
    · split at h
      · next e => cases h; exact e
      · split at h
        · next e => cases h; exact e
        · cases h

theorem removeRefs_touches {V : XTyp → String → Prop} : ∀ (refs : Obj), (∀ (x : XTyp) v, (x.name, Val.str v) ∈ refs → V x v) →
    ∀ db, Touches (fun q => ∃ x v, V x v ∧ q = indexKey x v) (removeRefsProg refs) db := by
  intro refs
  induction refs with
  | nil => intro _ db; trivial
  | cons p refs ih =>
    obtain ⟨xt, v⟩ := p
    intro h db
    have hrest : ∀ (x : XTyp) v, (x.name, Val.str v) ∈ refs → V x v := fun x v hm => h x v (List.mem_cons_of_mem _ hm)
    unfold removeRefsProg
    cases hx : XTyp.ofName? xt with
    | none => trivial
    | some x =>
      cases v with
      | str s =>
        refine ⟨⟨x, s, h x s (by rw [ofName?_eq hx]; exact List.mem_cons_self ..), rfl⟩, ?_⟩
        split
        · exact ih hrest _
        · trivial
      | _ => trivial

theorem touches_mono {α : Type} {own own' : String → Prop} (h : ∀ q, own q → own' q) (p : Prog α) : ∀ db, Touches own p db → Touches own' p db := by
  induction p with
  | done r => intro db _; trivial
  | get k next ih => intro db hp; exact ⟨h _ hp.1, ih _ db hp.2⟩
  | set k v next ih => intro db hp; exact ⟨h _ hp.1, ih _ hp.2⟩
  | del k next ih =>
    intro db hp
    obtain ⟨h0, hp⟩ := hp
    refine ⟨h _ h0, ?_⟩
    split
    · next hk => rw [if_pos hk] at hp; exact ih _ _ hp
    · next hk => rw [if_neg hk] at hp; exact ih _ _ hp

theorem alone_outside {α : Type} {own : String → Prop} {q : String} (hq : ¬ own q) (n : Nat) : ∀ {p : Prog α} {db : DB}, Touches own p db →
    Dict.get? (p.alone n db).2 q = Dict.get? db q := by
  induction n with
  | zero => intro p db _; rfl
  | succ n ih => intro p db h; exact (ih (touches_step h)).trans (step_outside h hq)

theorem exec_outside {α : Type} {own : String → Prop} {q : String} (hq : ¬ own q) {p : Prog α} {db : DB} (h : Touches own p db) :
    Dict.get? (p.exec db).2 q = Dict.get? db q := by
  obtain ⟨n, hn⟩ := alone_ends p db
  rw [← alone_outside hq n h, hn n (Nat.le_refl n)]

theorem alone_agree {α : Type} {own : String → Prop} (n : Nat) : ∀ {p : Prog α} {db db' : DB}, Touches own p db →
    (∀ q, own q → Dict.get? db' q = Dict.get? db q) → (p.alone n db').1 = (p.alone n db).1 ∧
      ∀ q, own q → Dict.get? (p.alone n db').2 q = Dict.get? (p.alone n db).2 q := by
  induction n with
  | zero => intro p db db' _ h; exact ⟨rfl, h⟩
  | succ n ih =>
    intro p db db' h1 h2
    obtain ⟨g1, g2, -⟩ := step_agree h1 h2
    obtain ⟨a1, a2⟩ := ih (touches_step h1) g2
    simp only [Prog.alone]
    rw [g1]
    exact ⟨a1, a2⟩

theorem exec_agree {α : Type} {own : String → Prop} {p : Prog α} {db db' : DB} (h1 : Touches own p db)
    (h2 : ∀ q, own q → Dict.get? db' q = Dict.get? db q) : (p.exec db').1 = (p.exec db).1 := by
  obtain ⟨n, hn⟩ := alone_ends p db
  obtain ⟨n', hn'⟩ := alone_ends p db'
  have := (alone_agree (n + n') h1 h2).1
  rw [hn _ (by omega), hn' _ (by omega)] at this
  injection this

theorem call_touches {K : String → Prop} (hK : KeySpace K) {k : String} (hk : K k) {V : XTyp → String → Prop} {db : DB} (hb : BoundIn db k V)
    {op : Op} (hop : CallFor k V op) :
    Touches (Own k V) (callProg op) db ∧ BoundIn (StateInterface.step op db).2 k V := by
  have hne : refKey k ≠ k := fun e => hK.noRef k k hk hk e.symm
  have hkeep : ∀ {db' : DB}, Dict.get? db' (refKey k) = Dict.get? db (refKey k) → BoundIn db' k V := by
    intro db' e refs hr x v hm
    exact hb refs (e ▸ hr) x v hm
  cases op with
  | create iss key rnd =>
    simp only [CallFor] at hop
    rw [← call_exec]
    simp only [callProg, createProg]
    split
    · next h =>
      rw [if_pos h] at hop; subst hop
      exact ⟨⟨.inl rfl, trivial⟩, hkeep (Dict.get?_set_ne _ _ hne.symm)⟩
    · next h =>
      rw [if_neg h] at hop; subst hop
      split
      · exact ⟨trivial, hb⟩
      · exact ⟨⟨.inl rfl, trivial⟩, hkeep (Dict.get?_set_ne _ _ hne.symm)⟩
  | store item t k' =>
    simp only [CallFor] at hop
    subst hop
    rw [← call_exec]
    simp only [callProg, storeProg, Prog.exec, Touches]
    split
    · exact ⟨⟨.inl rfl, .inl rfl, trivial⟩, hkeep (Dict.get?_set_ne _ _ hne.symm)⟩
    · exact ⟨⟨.inl rfl, .inl rfl, trivial⟩, hkeep (Dict.get?_set_ne _ _ hne.symm)⟩
    · exact ⟨⟨.inl rfl, trivial⟩, hb⟩
  | bind x v k' =>
    obtain ⟨rfl, hv⟩ := hop
    rw [← call_exec]
    have hi : Own k' V (indexKey x v) := .inr (.inr ⟨x, v, hv, rfl⟩)
    have e0 : Dict.get? (Dict.set db (indexKey x v) (.raw k')) (refKey k') = Dict.get? db (refKey k') :=
      Dict.get?_set_ne _ _ (indexKey_ne_refKey x v k')
    simp only [callProg, bindProg, Prog.exec, Touches, e0]
    cases hr : Dict.get? db (refKey k') with
    | none =>
      refine ⟨⟨hi, .inr (.inl rfl), .inr (.inl rfl), trivial⟩, ?_⟩
      intro refs hrefs y w hm
      have := hrefs
      simp only [Prog.exec] at this
      rw [show "ref" ++ k' ++ "ref" = refKey k' from rfl, Dict.get?_set_self] at this
      injection this with this
      injection this with this
      subst this
      simp only [List.mem_singleton, Prod.mk.injEq, Val.str.injEq] at hm
      obtain ⟨h1, rfl⟩ := hm
      rw [XTyp.name_inj.1 h1]; exact hv
    | some d =>
      cases d with
      | raw s => exact ⟨⟨hi, .inr (.inl rfl), trivial⟩, hkeep e0⟩
      | doc refs0 =>
        refine ⟨⟨hi, .inr (.inl rfl), .inr (.inl rfl), trivial⟩, ?_⟩
        intro refs hrefs y w hm
        have := hrefs
        simp only [Prog.exec] at this
        rw [show "ref" ++ k' ++ "ref" = refKey k' from rfl, Dict.get?_set_self] at this
        injection this with this
        injection this with this
        subst this
        rcases Dict.mem_set hm with h | h
        · exact hb refs0 hr y w h
        · simp only [Prod.mk.injEq, Val.str.injEq] at h
          obtain ⟨h1, rfl⟩ := h
          rw [XTyp.name_inj.1 h1]; exact hv
  | remove k' =>
    simp only [CallFor] at hop
    subst hop
    rw [← call_exec]
    have e0 : Dict.get? (Dict.del db k') (refKey k') = Dict.get? db (refKey k') := Dict.get?_del_ne _ hne.symm
    by_cases hh : Dict.has db k' = true
    · simp only [callProg, removeProg, Prog.exec, Touches, hh, if_true, e0]
      cases hr : Dict.get? db (refKey k') with
      | none => exact ⟨⟨.inl rfl, .inr (.inl rfl), trivial⟩, hkeep e0⟩
      | some d =>
        cases d with
        | raw s => exact ⟨⟨.inl rfl, .inr (.inl rfl), trivial⟩, hkeep e0⟩
        | doc refs =>
          have ht := removeRefs_touches refs (hb refs hr) (Dict.del db k')
          refine ⟨⟨.inl rfl, .inr (.inl rfl), touches_mono (fun q hq => .inr (.inr hq)) _ _ ht⟩, hkeep ?_⟩
          rw [exec_outside _ ht, e0]
          rintro ⟨x, v, -, e⟩
          exact refKey_ne_indexKey x v k' e
    · simp only [Bool.not_eq_true] at hh
      simp only [callProg, removeProg, Prog.exec, Touches, hh]
      exact ⟨⟨.inl rfl, trivial⟩, hb⟩
  | item t k' =>
    simp only [CallFor] at hop
    subst hop
    refine ⟨⟨.inl rfl, ?_⟩, by simp only [StateInterface.step]; cases getItem db t k' <;> exact hb⟩
    dsimp only
    split <;> trivial
  | issuer k' =>
    simp only [CallFor] at hop
    subst hop
    refine ⟨⟨.inl rfl, ?_⟩, by simp only [StateInterface.step]; cases getIss db k' <;> exact hb⟩
    dsimp only
    split <;> trivial
  | lookup x v =>
    refine ⟨⟨.inr (.inr ⟨x, v, hop, rfl⟩), ?_⟩, by simp only [StateInterface.step]; cases getStateByX db v x <;> exact hb⟩
    dsimp only
    split <;> trivial

theorem thread_touches {K : String → Prop} (hK : KeySpace K) {k : String} (hk : K k) {V : XTyp → String → Prop} : ∀ (ops : List Op) (db : DB),
    BoundIn db k V → (∀ op ∈ ops, CallFor k V op) →
    Touches (Own k V) (threadProg ops) db ∧ BoundIn (StateInterface.run ops db).2 k V := by
  intro ops
  induction ops with
  | nil => intro db hb _; exact ⟨trivial, hb⟩
  | cons op ops ih =>
    intro db hb hops
    obtain ⟨g1, g2⟩ := call_touches hK hk hb (hops op (by simp))
    obtain ⟨a1, a2⟩ := ih (StateInterface.step op db).2 g2 (fun o ho => hops o (by simp [ho]))
    refine ⟨?_, a2⟩
    refine touches_andThen _ _ db g1 ?_
    rw [call_exec]
    exact touches_andThen _ _ _ a1 trivial

theorem own_disjoint {ι : Type} {K : String → Prop} (hK : KeySpace K) {key : ι → String} {V : ι → XTyp → String → Prop} {ops : ι → List Op} {db : DB}
    (h : OwnSessions K key V ops db) (i j : ι) (q : String) (hij : i ≠ j) (hi : Own (key i) (V i) q) : ¬ Own (key j) (V j) q := by
  have hki := h.known i
  have hkj := h.known j
  rintro (hj | hj | ⟨y, w, hw, hj⟩) <;> rcases hi with hi | hi | ⟨x, v, hv, hi⟩
  · exact hij (h.sessions i j (hi ▸ hj))
  · exact hK.noRef (key j) (key i) hkj hki (hj ▸ hi)
  · exact KeySpace.ne_index hK hkj x v (hj ▸ hi)
  · exact hK.noRef (key i) (key j) hki hkj (hi ▸ hj)
  · exact hij (h.sessions i j (refKey_inj.1 (hi ▸ hj)))
  · exact refKey_ne_indexKey x v (key j) (hj ▸ hi)
  · exact KeySpace.ne_index hK hki y w (hi ▸ hj)
  · exact refKey_ne_indexKey y w (key i) (hi ▸ hj)
  · have e := indexKey_inj.1 (hi.symm.trans hj)
    obtain ⟨rfl, rfl⟩ := e
    exact hij (h.values i j x v hv hw)

theorem system_agree {ι : Type} [DecidableEq ι] {K : String → Prop} (hK : KeySpace K) {key : ι → String} {V : ι → XTyp → String → Prop} {ops : ι → List Op} {db : DB}
    (h : OwnSessions K key V ops db) (sched : List ι) :
    (∀ i, ((System.start ops db).run sched).threads i = ((threadProg (ops i)).alone (sched.count i) db).1) ∧
    (∀ i q, Own (key i) (V i) q → Dict.get? ((System.start ops db).run sched).db q = Dict.get? ((threadProg (ops i)).alone (sched.count i) db).2 q) ∧
    (∀ q, (∀ i, ¬ Own (key i) (V i) q) → Dict.get? ((System.start ops db).run sched).db q = Dict.get? db q) :=
  run_agree (own := fun i => Own (key i) (V i)) (fun i j q hij hi => own_disjoint hK h i j q hij hi) sched (System.start ops db)
    (fun i => threadProg (ops i)) (fun _ => db) (fun _ => rfl)
    (fun i => (thread_touches hK (h.known i) (ops i) db (h.bound i) (h.calls i)).1) (fun _ _ _ => rfl)

/-! ## C88 -/

/-- **C88** (threads).  Threads make calls for sessions of their own, with values of their own.  However their dictionary
operations are interleaved: a thread that is finished got the results it would have got alone, and what any further call for
its session finds is what it would find had the thread been alone. -/
theorem C88_schedules {ι : Type} [DecidableEq ι] {K : String → Prop} (hK : KeySpace K) (key : ι → String) (V : ι → XTyp → String → Prop) (ops : ι → List Op) (db : DB)
    (h : OwnSessions K key V ops db) (sched : List ι) (i : ι) (rs : List (Except Exc Out))
    (hdone : ((System.start ops db).run sched).threads i = .done rs) :
    rs = (StateInterface.run (ops i) db).1 ∧
    ∀ op, CallFor (key i) (V i) op → (StateInterface.step op ((System.start ops db).run sched).db).1 = (StateInterface.step op (StateInterface.run (ops i) db).2).1 := by
  obtain ⟨g1, g2, -⟩ := system_agree hK h sched
  have e := alone_of_done (sched.count i) db ((g1 i).symm.trans hdone)
  rw [thread_exec] at e
  have e1 : (StateInterface.run (ops i) db).1 = rs := by rw [e]
  have e2 : ((threadProg (ops i)).alone (sched.count i) db).2 = (StateInterface.run (ops i) db).2 := by rw [e]
  refine ⟨e1.symm, fun op hop => ?_⟩
  have hb := (thread_touches hK (h.known i) (ops i) db (h.bound i) (h.calls i)).2
  rw [← call_exec, ← call_exec]
  refine exec_agree (call_touches hK (h.known i) hb hop).1 (fun q hq => ?_)
  rw [← e2]
  exact g2 i q hq

/-- **C88** (progress).  A thread that gets enough turns finishes, whatever the others do. -/
theorem C88_finishes {ι : Type} [DecidableEq ι] {K : String → Prop} (hK : KeySpace K) (key : ι → String) (V : ι → XTyp → String → Prop) (ops : ι → List Op) (db : DB)
    (h : OwnSessions K key V ops db) (i : ι) :
    ∃ n, ∀ sched, n ≤ sched.count i → ((System.start ops db).run sched).threads i = .done (StateInterface.run (ops i) db).1 := by
  obtain ⟨n, hn⟩ := alone_ends (threadProg (ops i)) db
  refine ⟨n, fun sched hs => ?_⟩
  rw [(system_agree hK h sched).1 i, hn _ hs, thread_exec]

/-- **C88** (sessions nobody works on).  They are as before, after every schedule. -/
theorem C88_other_sessions {ι : Type} [DecidableEq ι] {K : String → Prop} (hK : KeySpace K) (key : ι → String) (V : ι → XTyp → String → Prop) (ops : ι → List Op) (db : DB)
    (h : OwnSessions K key V ops db) (sched : List ι) (k : String) (hk : K k) (hother : ∀ i, key i ≠ k) :
    (∀ t, getItem ((System.start ops db).run sched).db t k = getItem db t k) ∧
    getIss ((System.start ops db).run sched).db k = getIss db k ∧
    ∀ x v, (∀ i, ¬ V i x v) → getStateByX ((System.start ops db).run sched).db v x = getStateByX db v x := by
  obtain ⟨-, -, g3⟩ := system_agree hK h sched
  have e : Dict.get? ((System.start ops db).run sched).db k = Dict.get? db k := by
    refine g3 k (fun i => ?_)
    rintro (h' | h' | ⟨x, v, -, h'⟩)
    · exact hother i h'.symm
    · exact hK.noRef k (key i) hk (h.known i) h'
    · exact KeySpace.ne_index hK hk x v h'
  refine ⟨fun t => by simp only [getItem, getState, e], by simp only [getIss, getState, e], fun x v hv => ?_⟩
  have e' : Dict.get? ((System.start ops db).run sched).db (indexKey x v) = Dict.get? db (indexKey x v) := by
    refine g3 _ (fun i => ?_)
    rintro (h' | h' | ⟨y, w, hw, h'⟩)
    · exact KeySpace.ne_index hK (h.known i) x v h'.symm
    · exact indexKey_ne_refKey x v _ h'
    · obtain ⟨rfl, rfl⟩ := indexKey_inj.1 h'
      exact hv i hw
  simp only [getStateByX, e']

/-- **C88** (the order does not matter).  After any two schedules that finish all threads the store has the same content. -/
theorem C88_same_store {ι : Type} [DecidableEq ι] {K : String → Prop} (hK : KeySpace K) (key : ι → String) (V : ι → XTyp → String → Prop) (ops : ι → List Op) (db : DB)
    (h : OwnSessions K key V ops db) (s1 s2 : List ι) (h1 : ∀ i, ∃ rs, ((System.start ops db).run s1).threads i = .done rs)
    (h2 : ∀ i, ∃ rs, ((System.start ops db).run s2).threads i = .done rs) (q : String) :
    Dict.get? ((System.start ops db).run s1).db q = Dict.get? ((System.start ops db).run s2).db q := by
  obtain ⟨a1, a2, a3⟩ := system_agree hK h s1
  obtain ⟨b1, b2, b3⟩ := system_agree hK h s2
  by_cases hq : ∃ i, Own (key i) (V i) q
  · obtain ⟨i, hq⟩ := hq
    obtain ⟨r1, d1⟩ := h1 i
    obtain ⟨r2, d2⟩ := h2 i
    have e1 := alone_of_done (s1.count i) db ((a1 i).symm.trans d1)
    have e2 := alone_of_done (s2.count i) db ((b1 i).symm.trans d2)
    rw [a2 i q hq, b2 i q hq]
    have e3 := e1.symm.trans e2
    rw [(Prod.mk.inj e3).2]
  · have hq : ∀ i, ¬ Own (key i) (V i) q := fun i hi => hq ⟨i, hi⟩
    rw [a3 q hq, b3 q hq]

/-! ## C88: what does not hold, and an example -/

/-- **C88** for one session is violated: two threads store different items for the same session, both succeed, and one of
the items is lost (one thread reads the session before, and writes it after the other). -/
theorem C88_lost_update_violated :
    let ops : Bool → List Op := fun b => if b then [.store [("sub", .str "alice")] "user_info" "k"] else [.store [("access_token", .str "t")] "token_response" "k"]
    let db : DB := [("k", .doc [("iss", .str "https://op.example")])]
    let s := (System.start ops db).run [false, true, false, true]
    s.threads false = .done [.ok .unit] ∧ s.threads true = .done [.ok .unit] ∧
    getItem s.db "user_info" "k" = .ok [("sub", .str "alice")] ∧ getItem s.db "token_response" "k" = .error .keyError := by
  refine ⟨?_, ?_, ?_, ?_⟩ <;> rfl

/-- Two logins at the same time: the calls the handler makes on the store for each. -/
def twoLogins : Bool → List Op := fun b =>
  if b then [.create "https://op.example" "" "K1", .store [("nonce", .str "n1")] "auth_request" "K1", .bind .nonce "n1" "K1",
    .bind .subjectId "alice" "K1", .remove "K1"]
  else [.create "https://op.example" "" "K2", .store [("nonce", .str "n2")] "auth_request" "K2", .bind .nonce "n2" "K2", .lookup .nonce "n2",
    .item "auth_request" "K2"]

/-- The keys of the example. -/
def twoKeys (b : Bool) : String := if b then "K1" else "K2"

/-- The values of the example. -/
def twoValues (b : Bool) (x : XTyp) (v : String) : Prop :=
  if b then (x = .nonce ∧ v = "n1") ∨ (x = .subjectId ∧ v = "alice") else x = .nonce ∧ v = "n2"

/-- The sessions of the example. -/
theorem twoKeys_space : KeySpace (fun k => k = "K1" ∨ k = "K2") := by
  refine ⟨?_, ?_, ?_⟩
  · rintro k (rfl | rfl) <;> decide
  · rintro k (rfl | rfl) m hm <;> (simp only [List.mem_cons, List.not_mem_nil, or_false] at hm; rcases hm with rfl | rfl | rfl | rfl <;> decide)
  · rintro k k' (rfl | rfl) (rfl | rfl) <;> decide

/-- The hypotheses of **C88** hold for the two logins, … -/
theorem two_own : OwnSessions (fun k => k = "K1" ∨ k = "K2") twoKeys twoValues twoLogins [] := by
  refine ⟨?_, ?_, ?_, ?_, ?_⟩
  · intro i; cases i <;> simp [twoKeys]
  · intro i j; cases i <;> cases j <;> simp [twoKeys]
  · intro i j x v; cases i <;> cases j <;> simp [twoValues]
    · rintro rfl rfl; simp
    · rintro (⟨rfl, rfl⟩ | ⟨rfl, rfl⟩) <;> simp
  · intro i op hop
    cases i <;> simp [twoLogins] at hop
    · rcases hop with rfl | rfl | rfl | rfl | rfl <;> simp [CallFor, twoKeys, twoValues]
    · rcases hop with rfl | rfl | rfl | rfl | rfl <;> simp [CallFor, twoKeys, twoValues]
  · intro i refs h; cases h

/-- … and the second finds its own nonce and request although the first is removed in the middle of it. -/
example : (((System.start twoLogins []).run [true, false, true, false, true, true, true, true, false, true, true, true, false, true, true, false, false,
      true, true, false, false]).threads false) =
    .done [.ok (.key "K2"), .ok .unit, .ok .unit, .ok (.ptr (.raw "K2")), .ok (.doc [("nonce", .str "n2")])] := by
  rfl

/-! ## C89 -/

/-- What a crash after `n` dictionary operations of a call leaves. -/
def crashed (op : Op) (n : Nat) (db : DB) : DB := ((callProg op).alone n db).2

theorem crashed_get (k : String) (next : Option DbVal → Prog (Except Exc Out)) (hn : ∀ v, ∃ r, next v = .done r) (n : Nat) (db : DB) :
    ((Prog.get k next).alone n db).2 = db := by
  cases n with
  | zero => rfl
  | succ n =>
    obtain ⟨r, hr⟩ := hn (Dict.get? db k)
    simp only [Prog.alone, Prog.step, hr, alone_done]

/-- The refs that are deleted are index entries. -/
theorem removeRefs_only_index (refs : Obj) (db : DB) : Touches (fun q => ∃ x v, q = indexKey x v) (removeRefsProg refs) db :=
  touches_mono (fun _ ⟨x, v, _, e⟩ => ⟨x, v, e⟩) _ _ (removeRefs_touches (V := fun _ _ => True) refs (fun _ _ _ => trivial) db)

/-- **C89** (one call).  Wherever a call on the store is interrupted, every session is as it was before the call or as the
complete call leaves it: no record is ever half written. -/
theorem C89_all_or_nothing {K : String → Prop} (hK : KeySpace K) (op : Op) (n : Nat) (db : DB) (hop : OpOk K op) (k : String) (hk : K k) :
    Dict.get? (crashed op n db) k = Dict.get? db k ∨ Dict.get? (crashed op n db) k = Dict.get? (StateInterface.step op db).2 k := by
  rw [← call_exec]
  have hend : ∀ (p : Prog (Except Exc Out)) m db, (∃ r, p = .done r) → (p.alone m db).2 = db := by
    rintro p m db ⟨r, rfl⟩; rw [alone_done]
  cases op with
  | create iss key rnd =>
    simp only [crashed, callProg, createProg]
    split
    · cases n with
      | zero => exact .inl rfl
      | succ n => simp only [Prog.alone, Prog.step, alone_done, Prog.exec]; simp
    · split
      · simp only [alone_done]; simp
      · cases n with
        | zero => exact .inl rfl
        | succ n => simp only [Prog.alone, Prog.step, alone_done, Prog.exec]; simp
  | store item t key =>
    simp only [crashed, callProg, storeProg]
    cases n with
    | zero => exact .inl rfl
    | succ n =>
      simp only [Prog.alone, Prog.step, Prog.exec]
      split
      · cases n with
        | zero => exact .inl rfl
        | succ n => simp only [Prog.alone, Prog.step, alone_done, Prog.exec]; simp
      · cases n with
        | zero => exact .inl rfl
        | succ n => simp only [Prog.alone, Prog.step, alone_done, Prog.exec]; simp
      · simp only [alone_done]; simp
  | bind x v key =>
    left
    refine alone_outside (own := fun q => q = refKey key ∨ ∃ x v, q = indexKey x v) ?_ n ?_
    · rintro (h | ⟨y, w, h⟩)
      · exact hK.noRef k key hk hop h
      · exact KeySpace.ne_index hK hk y w h
    · refine ⟨.inr ⟨x, v, rfl⟩, .inl rfl, ?_⟩
      dsimp only
      split
      · exact ⟨.inl rfl, trivial⟩
      · exact ⟨.inl rfl, trivial⟩
      · trivial
  | remove key =>
    have hidx : ∀ q, K q → ¬ ∃ x v, q = indexKey x v := fun q hq ⟨x, v, e⟩ => KeySpace.ne_index hK hq x v e
    cases n with
    | zero => exact .inl rfl
    | succ n =>
      by_cases hh : Dict.has db key = true
      · right
        simp only [crashed, callProg, removeProg, Prog.alone, Prog.step, Prog.exec, hh, if_true]
        cases n with
        | zero =>
          simp only [Prog.alone]
          split
          · rfl
          · rfl
          · exact (exec_outside (hidx k hk) (removeRefs_only_index _ _)).symm
        | succ n =>
          simp only [Prog.alone, Prog.step]
          split
          · simp only [alone_done, Prog.exec]
          · simp only [alone_done, Prog.exec]
          · rw [alone_outside (hidx k hk) n (removeRefs_only_index _ _), exec_outside (hidx k hk) (removeRefs_only_index _ _)]
      · left
        simp only [Bool.not_eq_true] at hh
        simp only [crashed, callProg, removeProg, Prog.alone, Prog.step, hh, Bool.false_eq_true, if_false, alone_done]
  | item t key => left; rw [crashed, callProg, itemProg, crashed_get _ _ (by intro v; split <;> exact ⟨_, rfl⟩)]
  | issuer key => left; rw [crashed, callProg, issuerProg, crashed_get _ _ (by intro v; split <;> exact ⟨_, rfl⟩)]
  | lookup x v => left; rw [crashed, callProg, lookupProg, crashed_get _ _ (by intro v; split <;> exact ⟨_, rfl⟩)]

/-- Threads that crash leave every session as after the first calls of its thread. -/
theorem thread_prefix {K : String → Prop} (hK : KeySpace K) {k : String} (hk : K k) : ∀ (ops : List Op) (n : Nat) (db : DB), (∀ op ∈ ops, OpOk K op) →
    ∃ m, m ≤ ops.length ∧ Dict.get? ((threadProg ops).alone n db).2 k = Dict.get? (StateInterface.run (ops.take m) db).2 k := by
  intro ops
  induction ops with
  | nil => intro n db _; exact ⟨0, Nat.le_refl _, by rw [threadProg, alone_done]; rfl⟩
  | cons op ops ih =>
    intro n db hops
    rcases alone_andThen (callProg op) (fun r => (threadProg ops).andThen fun rs => .done (r :: rs)) n db with ⟨m, hm⟩ | ⟨m, hm⟩
    · rw [threadProg, hm]
      rcases C89_all_or_nothing hK op m db (hops op (by simp)) k hk with h | h
      · exact ⟨0, by simp, h⟩
      · exact ⟨1, by simp, h⟩
    · rw [threadProg, hm, call_exec]
      rcases alone_andThen (threadProg ops) (fun rs => .done ((StateInterface.step op db).1 :: rs)) m (StateInterface.step op db).2 with ⟨l, hl⟩ | ⟨l, hl⟩
      · rw [hl]
        obtain ⟨j, j1, j2⟩ := ih l (StateInterface.step op db).2 (fun o ho => hops o (by simp [ho]))
        exact ⟨j + 1, by simp; omega, j2⟩
      · rw [hl, alone_done, thread_exec]
        refine ⟨ops.length + 1, by simp, ?_⟩
        rw [List.take_of_length_le (by simp)]
        rfl

/-- **C89** (many threads).  Threads work on sessions of their own; the process crashes at any point of any schedule.  Every
session is then as after a number of complete calls of its thread. -/
theorem C89_crash {ι : Type} [DecidableEq ι] {K : String → Prop} (hK : KeySpace K) (key : ι → String) (V : ι → XTyp → String → Prop) (ops : ι → List Op) (db : DB)
    (h : OwnSessions K key V ops db) (hops : ∀ i, ∀ op ∈ ops i, OpOk K op) (sched : List ι) (i : ι) :
    ∃ m, m ≤ (ops i).length ∧ (∀ t, getItem ((System.start ops db).run sched).db t (key i) = getItem (StateInterface.run ((ops i).take m) db).2 t (key i)) ∧
      getIss ((System.start ops db).run sched).db (key i) = getIss (StateInterface.run ((ops i).take m) db).2 (key i) := by
  obtain ⟨m, hm, e⟩ := thread_prefix hK (h.known i) (ops i) (sched.count i) db (hops i)
  have e' := ((system_agree hK h sched).2.1 i (key i) (.inl rfl)).trans e
  exact ⟨m, hm, fun t => by simp only [getItem, getState, e'], by simp only [getIss, getState, e']⟩

/-- **C89** (repeating the call).  If creating a session, storing an item or binding a value was interrupted, repeating the call
makes it good: it succeeds or fails as the call would have done without the crash, and leaves the same store. -/
theorem C89_retry (op : Op) (hop : (∃ iss key rnd, op = .create iss key rnd) ∨ (∃ i t k, op = .store i t k) ∨ ∃ x v k, op = .bind x v k)
    (n : Nat) (db : DB) :
    (StateInterface.step op (crashed op n db)).1 = (StateInterface.step op db).1 ∧
    ∀ q, Dict.get? (StateInterface.step op (crashed op n db)).2 q = Dict.get? (StateInterface.step op db).2 q := by
  rcases hop with ⟨iss, key, rnd, rfl⟩ | ⟨i, t, k, rfl⟩ | ⟨x, v, k, rfl⟩
  · simp only [crashed, callProg, createProg, StateInterface.step, createState]
    split
    · cases n with
      | zero => exact ⟨rfl, fun _ => rfl⟩
      | succ n =>
        simp only [Prog.alone, Prog.step, alone_done, mapOut]
        exact ⟨trivial, fun q => by rw [Dict.set_set]⟩
    · split
      · simp only [alone_done]; exact ⟨trivial, fun _ => trivial⟩
      · cases n with
        | zero => exact ⟨rfl, fun _ => rfl⟩
        | succ n =>
          simp only [Prog.alone, Prog.step, alone_done, mapOut]
          exact ⟨trivial, fun q => by rw [Dict.set_set]⟩
  · have hset : ∀ (o : Obj), (∀ p ∈ o, Msg.emptyVal p.2 = false) → ∀ db : DB, ∀ w : DB, w = Dict.set db k (.doc (Dict.set o t (.obj i))) →
        (StateInterface.step (.store i t k) w).1 = .ok .unit ∧ ∀ q, Dict.get? (StateInterface.step (.store i t k) w).2 q = Dict.get? w q := by
      rintro o ho db w rfl
      simp only [StateInterface.step, storeItem, getState, Dict.get?_set_self]
      rw [Msg.ofDict_of_noEmpty (Msg.noEmpty_set ho t (by rfl)), Dict.set_set, Dict.set_set]
      exact ⟨rfl, fun _ => rfl⟩
    cases n with
    | zero => exact ⟨rfl, fun _ => rfl⟩
    | succ n =>
      rw [← call_exec _ db]
      simp only [crashed, callProg, storeProg, Prog.alone, Prog.step, Prog.exec]
      cases hr : readState (Dict.get? db k) with
      | ok st =>
        have hne : ∀ p ∈ st, Msg.emptyVal p.2 = false := by
          unfold readState at hr
          split at hr
          · cases hr
          · split at hr <;> cases hr
          · cases hr; exact Msg.ofDict_noEmpty _
        cases n with
        | zero =>
          simp only [Prog.alone, ← call_exec, callProg, storeProg, Prog.exec, hr]
          exact ⟨trivial, fun _ => trivial⟩
        | succ n =>
          simp only [Prog.alone, Prog.step, alone_done, Prog.exec]
          exact hset st hne db _ rfl
      | error e =>
        cases e with
        | keyError =>
          cases n with
          | zero =>
            simp only [Prog.alone, ← call_exec, callProg, storeProg, Prog.exec, hr]
            exact ⟨trivial, fun _ => trivial⟩
          | succ n =>
            simp only [Prog.alone, Prog.step, alone_done, Prog.exec]
            exact hset [] (by simp) db _ rfl
        | _ =>
          simp only [alone_done, ← call_exec, callProg, storeProg, Prog.exec, hr]
          exact ⟨trivial, fun _ => trivial⟩
  · have e0 : ∀ d : DB, Dict.get? (Dict.set d (indexKey x v) (.raw k)) (refKey k) = Dict.get? d (refKey k) :=
      fun d => Dict.get?_set_ne _ _ (indexKey_ne_refKey x v k)
    have hfin : ∀ (d : DB) (refs : Obj), Dict.get? d (indexKey x v) = some (.raw k) → Dict.get? d (refKey k) = some (.doc (Dict.set refs x.name (.str v))) →
        (StateInterface.step (.bind x v k) d).1 = .ok .unit ∧ ∀ q, Dict.get? (StateInterface.step (.bind x v k) d).2 q = Dict.get? d q := by
      intro d refs h1 h2
      simp only [StateInterface.step, storeX2State, e0, h2, mapOut, Dict.set_set, Dict.get?_set]
      refine ⟨trivial, fun q => ?_⟩
      split
      · next e => subst e; exact h2.symm
      · split
        · next e => subst e; exact h1.symm
        · rfl
    cases n with
    | zero => exact ⟨rfl, fun _ => rfl⟩
    | succ n =>
      have h1 : StateInterface.step (.bind x v k) (Dict.set db (indexKey x v) (.raw k)) = StateInterface.step (.bind x v k) db := by
        simp only [StateInterface.step, storeX2State, Dict.set_set]
      simp only [crashed, callProg, bindProg, Prog.alone, Prog.step]
      cases n with
      | zero => simp only [Prog.alone, h1]; exact ⟨trivial, fun _ => trivial⟩
      | succ n =>
        simp only [Prog.alone, Prog.step, e0]
        cases hr : Dict.get? db (refKey k) with
        | none =>
          cases n with
          | zero => simp only [Prog.alone, h1]; exact ⟨trivial, fun _ => trivial⟩
          | succ n =>
            simp only [Prog.alone, Prog.step, alone_done]
            obtain ⟨g1, g2⟩ := hfin (Dict.set (Dict.set db (indexKey x v) (.raw k)) (refKey k) (.doc [(x.name, .str v)])) []
              (by rw [Dict.get?_set_ne _ _ (refKey_ne_indexKey x v k), Dict.get?_set_self]) (by rw [Dict.get?_set_self]; rfl)
            refine ⟨g1.trans ?_, fun q => (g2 q).trans ?_⟩
            · simp only [StateInterface.step, storeX2State, e0, hr, mapOut]
            · simp only [StateInterface.step, storeX2State, e0, hr, mapOut]
        | some d =>
          cases d with
          | raw s => simp only [alone_done, h1]; exact ⟨trivial, fun _ => trivial⟩
          | doc refs =>
            cases n with
            | zero => simp only [Prog.alone, h1]; exact ⟨trivial, fun _ => trivial⟩
            | succ n =>
              simp only [Prog.alone, Prog.step, alone_done]
              obtain ⟨g1, g2⟩ := hfin (Dict.set (Dict.set db (indexKey x v) (.raw k)) (refKey k) (.doc (Dict.set refs x.name (.str v)))) refs
                (by rw [Dict.get?_set_ne _ _ (refKey_ne_indexKey x v k), Dict.get?_set_self]) (by rw [Dict.get?_set_self])
              refine ⟨g1.trans ?_, fun q => (g2 q).trans ?_⟩
              · simp only [StateInterface.step, storeX2State, e0, hr, mapOut]
              · simp only [StateInterface.step, storeX2State, e0, hr, mapOut]

/-- **C89** is violated for removing a session: interrupted after its first operation, the session is gone but its nonce, session
id and subject still lead to it, and repeating the call fails without removing them. -/
theorem C89_remove_violated :
    let db := (StateInterface.run [.create "https://op.example" "" "K1", .bind .subjectId "alice" "K1"] []).2
    let db1 := crashed (.remove "K1") 1 db
    getIss db1 "K1" = .error .keyError ∧ getStateByX db1 "alice" .subjectId = .ok (.raw "K1") ∧
    StateInterface.step (.remove "K1") db1 = (.error .keyError, db1) := by
  refine ⟨?_, ?_, ?_⟩ <;> rfl

/-- **C89** is violated for binding a value: interrupted after its first operation, removing the session later leaves the value,
which then leads to a session that does not exist. -/
theorem C89_bind_violated :
    let db := (StateInterface.run [.create "https://op.example" "" "K1", .bind .nonce "n" "K1"] []).2
    let db1 := crashed (.bind .subjectId "alice" "K1") 1 db
    (StateInterface.step (.remove "K1") db1).1 = .ok .unit ∧
    getStateByX (StateInterface.step (.remove "K1") db1).2 "alice" .subjectId = .ok (.raw "K1") ∧
    getIss (StateInterface.step (.remove "K1") db1).2 "K1" = .error .keyError := by
  refine ⟨?_, ?_, ?_⟩ <;> rfl

/-- The hypotheses of **C89** hold for the two logins; a crash in the middle leaves the first with its request, the second
created. -/
example : (∀ i, ∀ op ∈ twoLogins i, OpOk (fun k => k = "K1" ∨ k = "K2") op) ∧
    getItem ((System.start twoLogins []).run [true, true, false, true, true]).db "auth_request" "K1" = .ok [("nonce", .str "n1")] ∧
    getIss ((System.start twoLogins []).run [true, true, false, true, true]).db "K2" = .ok (.str "https://op.example") ∧
    getItem ((System.start twoLogins []).run [true, true, false, true, true]).db "auth_request" "K2" = .error .keyError := by
  refine ⟨?_, by rfl, by rfl, by rfl⟩
  intro i op hop
  cases i <;> simp [twoLogins] at hop
  · rcases hop with rfl | rfl | rfl | rfl | rfl <;> simp [OpOk]
  · rcases hop with rfl | rfl | rfl | rfl | rfl <;> simp [OpOk]

end Verif.Props
