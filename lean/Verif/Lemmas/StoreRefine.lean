import Verif.Lemmas.StateInterface
/-! The simulation between the flat dictionary and the abstract store. -/

namespace Verif.StoreRefine
open StateInterface Spec.Store

/-- A session record document represents an abstract session. -/
structure RecRel (o : Obj) (s : Session) : Prop where
  noEmpty : ∀ p ∈ o, Msg.emptyVal p.2 = false
  iss : Dict.get? o "iss" = if s.iss = "" then none else some (.str s.iss)
  items : ∀ t, t ≠ "iss" → Dict.get? o t = (s.items t).map .obj

/-- The JSON document of the values bound to a session. -/
def encRefs (l : List (XTyp × String)) : Obj := l.map (fun p => (p.1.name, Val.str p.2))

/-- The session part of the simulation, at one key. -/
def SessRel (v : Option DbVal) : Option Session → Prop
  | none => v = none
  | some s => ∃ o, v = some (.doc o) ∧ RecRel o s

/-- The simulation relation. -/
structure R (K : String → Prop) (db : DB) (a : Store) : Prop where
  sess : ∀ k, K k → SessRel (Dict.get? db k) (a.sess k)
  idx : ∀ x v, Dict.get? db (indexKey x v) = (a.idx x v).map .raw
  refs : ∀ k, K k → Dict.get? db (refKey k) = (a.refs k).map (fun l => .doc (encRefs l))
  ptr : ∀ x v k, a.idx x v = some k → k ≠ ""

theorem upd_self {α β : Type} [DecidableEq α] (f : α → β) (a : α) (b : β) : upd f a b a = b := by
  simp [upd]
theorem upd_ne {α β : Type} [DecidableEq α] (f : α → β) {a a' : α} (b : β) (h : a ≠ a') :
    upd f a b a' = f a' := by simp [upd, h]

theorem R_init (K : String → Prop) : R K init Spec.Store.empty :=
  ⟨fun _ _ => rfl, fun _ _ => rfl, fun _ _ => rfl, fun _ _ _ h => by simp [Spec.Store.empty] at h⟩

theorem getState_none {K : String → Prop} {db : DB} {a : Store} (h : R K db a) {k : String}
    (hk : K k) (hn : a.sess k = none) : getState db k = .error .keyError := by
  have := h.sess k hk; rw [hn] at this; simp only [SessRel] at this
  simp [getState, this]

theorem getState_some {K : String → Prop} {db : DB} {a : Store} (h : R K db a) {k : String}
    (hk : K k) {s : Session} (hs : a.sess k = some s) :
    ∃ o, getState db k = .ok o ∧ Dict.get? db k = some (.doc o) ∧ RecRel o s := by
  have := h.sess k hk; rw [hs] at this
  obtain ⟨o, ho, hr⟩ := this
  exact ⟨o, by simp [getState, ho, Msg.ofDict_of_noEmpty hr.noEmpty], ho, hr⟩

/-- Replacing the record of a session key. -/
theorem R_set_sess {K : String → Prop} (hK : KeySpace K) {db : DB} {a : Store} (h : R K db a)
    {k : String} (hk : K k) {o : Obj} {s : Session} (hr : RecRel o s) :
    R K (Dict.set db k (.doc o)) { a with sess := upd a.sess k (some s) } := by
  refine ⟨?_, ?_, ?_, h.ptr⟩
  · intro k' hk'
    by_cases e : k = k'
    · subst e; simp only [Dict.get?_set_self, upd_self, SessRel]; exact ⟨o, rfl, hr⟩
    · simp only [Dict.get?_set_ne _ _ e, upd_ne _ _ e]; exact h.sess k' hk'
  · intro x v
    rw [Dict.get?_set_ne _ _ (KeySpace.ne_index hK hk x v)]; exact h.idx x v
  · intro k' hk'
    rw [Dict.get?_set_ne _ _ (KeySpace.ne_ref hK hk hk')]; exact h.refs k' hk'

theorem RecRel_new (iss : String) :
    RecRel (Msg.ofDict [("iss", .str iss)]) ⟨iss, fun _ => none⟩ := by
  by_cases h : iss = ""
  · subst h
    refine ⟨Msg.ofDict_noEmpty _, ?_, ?_⟩ <;> simp [Msg.ofDict, Msg.emptyVal]
  · have he : Msg.ofDict [("iss", Val.str iss)] = [("iss", .str iss)] := by
      simp [Msg.ofDict, Msg.emptyVal, h]
    refine ⟨Msg.ofDict_noEmpty _, ?_, ?_⟩
    · simp [he, h, Dict.get?]
    · intro t ht; simp [he, Dict.get?, ht.symm]

theorem RecRel_set {o : Obj} {s : Session} (hr : RecRel o s) {t : String} (ht : t ≠ "iss")
    (item : Obj) : RecRel (Dict.set o t (.obj item)) { s with items := upd s.items t (some item) } := by
  refine ⟨Msg.noEmpty_set hr.noEmpty t rfl, ?_, ?_⟩
  · rw [Dict.get?_set_ne _ _ ht]; exact hr.iss
  · intro t' ht'
    by_cases e : t = t'
    · subst e; simp [upd_self]
    · simp only [Dict.get?_set_ne _ _ e, upd_ne _ _ e]; exact hr.items t' ht'

theorem RecRel_nil : RecRel [] ⟨"", fun _ => none⟩ :=
  ⟨by simp, by simp, by simp⟩

theorem encRefs_set (l : List (XTyp × String)) (x : XTyp) (v : String) :
    Dict.set (encRefs l) x.name (.str v) = encRefs (setRef l x v) := by
  induction l with
  | nil => rfl
  | cons p l ih =>
    obtain ⟨y, w⟩ := p
    have ih' : Dict.set (encRefs l) x.name (.str v) = encRefs (setRef l x v) := ih
    unfold encRefs at ih' ⊢
    simp only [List.map_cons, Dict.set, setRef]
    by_cases e : y = x
    · subst e; simp
    · have : ¬ y.name = x.name := fun h => e (XTyp.name_inj.1 h)
      simp [e, this, ih']

theorem R_bind {K : String → Prop} (hK : KeySpace K) {db : DB} {a : Store} (h : R K db a)
    {k : String} (hk : K k) (x : XTyp) (v : String) :
    ∃ db', storeX2State v k x db = (.ok (), db') ∧
      R K db' { a with idx := upd a.idx x (upd (a.idx x) v (some k)),
                       refs := upd a.refs k (some (setRef ((a.refs k).getD []) x v)) } := by
  have hr : Dict.get? (Dict.set db (indexKey x v) (.raw k)) (refKey k)
      = (a.refs k).map (fun l => .doc (encRefs l)) := by
    rw [Dict.get?_set_ne _ _ (indexKey_ne_refKey x v k)]; exact h.refs k hk
  refine ⟨Dict.set (Dict.set db (indexKey x v) (.raw k)) (refKey k)
      (.doc (encRefs (setRef ((a.refs k).getD []) x v))), ?_, ?_⟩
  · unfold storeX2State
    cases hl : a.refs k with
    | none => rw [hl] at hr; simp only [Option.map_none] at hr; simp [hr, encRefs, setRef]
    | some l =>
      rw [hl] at hr; simp only [Option.map_some] at hr
      simp [hr, ← encRefs_set]
  · refine ⟨?_, ?_, ?_, ?_⟩
    · intro k' hk'
      rw [Dict.get?_set_ne _ _ (fun e => KeySpace.ne_ref hK hk' hk e.symm),
        Dict.get?_set_ne _ _ (fun e => KeySpace.ne_index hK hk' x v e.symm)]
      exact h.sess k' hk'
    · intro y w
      rw [Dict.get?_set_ne _ _ (refKey_ne_indexKey y w k), Dict.get?_set]
      by_cases e : indexKey x v = indexKey y w
      · obtain ⟨rfl, rfl⟩ := indexKey_inj.1 e
        simp [upd_self]
      · rw [if_neg e, h.idx y w]
        by_cases ex : x = y
        · subst ex
          have : v ≠ w := fun ew => e (by rw [ew])
          simp [upd_self, upd_ne _ _ this]
        · simp [upd_ne _ _ ex]
    · intro k' hk'
      rw [Dict.get?_set]
      by_cases e : refKey k = refKey k'
      · have := refKey_inj.1 e; subst this; simp [upd_self]
      · have : k ≠ k' := fun ek => e (by rw [ek])
        rw [if_neg e, Dict.get?_set_ne _ _ (indexKey_ne_refKey x v k')]
        simp only [upd_ne _ _ this]
        exact h.refs k' hk'
    · intro y w k'
      by_cases ex : x = y
      · subst ex
        simp only [upd_self]
        by_cases ew : v = w
        · subst ew; simp only [upd_self]; rintro ⟨⟩; exact hK.nonempty _ hk
        · simp only [upd_ne _ _ ew]; exact h.ptr _ _ _
      · simp only [upd_ne _ _ ex]; exact h.ptr _ _ _

theorem R_del_index {K : String → Prop} (hK : KeySpace K) {db : DB} {a : Store} (h : R K db a)
    (x : XTyp) (v : String) :
    R K (Dict.del db (indexKey x v)) { a with idx := upd a.idx x (upd (a.idx x) v none) } := by
  refine ⟨?_, ?_, ?_, ?_⟩
  · intro k' hk'
    rw [Dict.get?_del_ne _ (fun e => KeySpace.ne_index hK hk' x v e.symm)]; exact h.sess k' hk'
  · intro y w
    rw [Dict.get?_del]
    by_cases e : indexKey x v = indexKey y w
    · obtain ⟨rfl, rfl⟩ := indexKey_inj.1 e; simp [upd_self]
    · rw [if_neg e, h.idx y w]
      by_cases ex : x = y
      · subst ex
        have : v ≠ w := fun ew => e (by rw [ew])
        simp [upd_self, upd_ne _ _ this]
      · simp [upd_ne _ _ ex]
  · intro k' hk'
    rw [Dict.get?_del_ne _ (indexKey_ne_refKey x v k')]; exact h.refs k' hk'
  · intro y w k'
    by_cases ex : x = y
    · subst ex
      simp only [upd_self]
      by_cases ew : v = w
      · subst ew; simp only [upd_self]; intro hh; cases hh
      · simp only [upd_ne _ _ ew]; exact h.ptr _ _ _
    · simp only [upd_ne _ _ ex]; exact h.ptr _ _ _

theorem R_dropRefs {K : String → Prop} (hK : KeySpace K) (l : List (XTyp × String)) :
    ∀ {db : DB} {a : Store}, R K db a →
      (removeRefs (encRefs l) db).1 = (dropRefs l a.idx).1 ∧
      R K (removeRefs (encRefs l) db).2 { a with idx := (dropRefs l a.idx).2 } := by
  induction l with
  | nil => intro db a h; exact ⟨rfl, h⟩
  | cons p l ih =>
    obtain ⟨x, v⟩ := p
    intro db a h
    have hi := h.idx x v
    have e1 : encRefs ((x, v) :: l) = (x.name, .str v) :: encRefs l := rfl
    rw [e1]
    simp only [removeRefs, dropRefs, XTyp.ofName?_name, Dict.has]
    cases hx : a.idx x v with
    | none =>
      rw [hx] at hi; simp only [Option.map_none] at hi
      simp only [hi, Option.isSome_none]
      exact ⟨rfl, h⟩
    | some k =>
      rw [hx] at hi; simp only [Option.map_some] at hi
      simp only [hi, Option.isSome_some, if_true]
      exact ih (R_del_index hK h x v)

theorem R_remove {K : String → Prop} (hK : KeySpace K) {db : DB} {a : Store} (h : R K db a)
    {k : String} (hk : K k) :
    (StateInterface.step (.remove k) db).1 = (Spec.Store.step a (.remove k)).1 ∧
    R K (StateInterface.step (.remove k) db).2 (Spec.Store.step a (.remove k)).2 := by
  have hs := h.sess k hk
  simp only [StateInterface.step, Spec.Store.step, removeState, Dict.has]
  cases hsk : a.sess k with
  | none =>
    rw [hsk] at hs; simp only [SessRel] at hs
    simp only [hs, Option.isSome_none]
    exact ⟨rfl, h⟩
  | some s =>
    rw [hsk] at hs; obtain ⟨o, ho, hr⟩ := hs
    simp only [ho, Option.isSome_some, if_true]
    have h1 : R K (Dict.del db k) { a with sess := upd a.sess k none } := by
      refine ⟨?_, ?_, ?_, h.ptr⟩
      · intro k' hk'
        by_cases e : k = k'
        · subst e; simp [upd_self, SessRel]
        · simp only [Dict.get?_del_ne _ e, upd_ne _ _ e]; exact h.sess k' hk'
      · intro x v
        rw [Dict.get?_del_ne _ (KeySpace.ne_index hK hk x v)]; exact h.idx x v
      · intro k' hk'
        rw [Dict.get?_del_ne _ (KeySpace.ne_ref hK hk hk')]; exact h.refs k' hk'
    have hrf := h1.refs k hk
    simp only at hrf
    cases hl : a.refs k with
    | none =>
      rw [hl] at hrf; simp only [Option.map_none] at hrf
      simp only [hrf]; exact ⟨rfl, h1⟩
    | some l =>
      rw [hl] at hrf; simp only [Option.map_some] at hrf
      simp only [hrf]
      have := R_dropRefs hK l h1
      rcases hrr : removeRefs (encRefs l) (Dict.del db k) with ⟨r1, db1⟩
      rcases hdd : dropRefs l a.idx with ⟨r2, i1⟩
      simp only [hrr, hdd] at this
      obtain ⟨rfl, hR⟩ := this
      cases r1 <;> exact ⟨rfl, hR⟩

/-- One call: same result, and the simulation is kept. -/
theorem R_step {K : String → Prop} (hK : KeySpace K) {db : DB} {a : Store} (h : R K db a)
    {op : Op} (hop : OpOk K op) :
    (StateInterface.step op db).1 = (Spec.Store.step a op).1 ∧
    R K (StateInterface.step op db).2 (Spec.Store.step a op).2 := by
  cases op with
  | create iss key rnd =>
    obtain ⟨h1, h2⟩ := hop
    simp only [StateInterface.step, Spec.Store.step, createState]
    by_cases e : key = ""
    · simp only [if_pos e, mapOut]
      exact ⟨trivial, R_set_sess hK h h2 (RecRel_new iss)⟩
    · have hk := h1.resolve_left e
      simp only [if_neg e, KeySpace.not_dunder hK hk, mapOut]
      exact ⟨rfl, R_set_sess hK h hk (RecRel_new iss)⟩
  | store item t k =>
    obtain ⟨hk, ht⟩ := hop
    simp only [StateInterface.step, Spec.Store.step, storeItem]
    cases hs : a.sess k with
    | none =>
      simp only [getState_none h hk hs, mapOut, Option.getD_none]
      exact ⟨trivial, R_set_sess hK h hk (RecRel_set RecRel_nil ht item)⟩
    | some s =>
      obtain ⟨o, ho, _, hr⟩ := getState_some h hk hs
      simp only [ho, mapOut, Option.getD_some]
      exact ⟨trivial, R_set_sess hK h hk (RecRel_set hr ht item)⟩
  | bind x v k =>
    obtain ⟨db', h1, h2⟩ := R_bind hK h hop x v
    simp only [StateInterface.step, Spec.Store.step, h1, mapOut]
    exact ⟨trivial, h2⟩
  | remove k => exact R_remove hK h hop
  | item t k =>
    obtain ⟨hk, ht⟩ := hop
    simp only [StateInterface.step, Spec.Store.step, getItem]
    cases hs : a.sess k with
    | none => simp only [getState_none h hk hs]; exact ⟨rfl, h⟩
    | some s =>
      obtain ⟨o, ho, _, hr⟩ := getState_some h hk hs
      have hi := hr.items t ht
      simp only [ho]
      cases hit : s.items t with
      | none => rw [hit] at hi; simp only [Option.map_none] at hi; simp only [hi, asItem]; exact ⟨rfl, h⟩
      | some i =>
        rw [hit] at hi; simp only [Option.map_some] at hi; simp only [hi, mapOut, asItem]
        exact ⟨by rw [Msg.ofDict_eq_withoutEmpty], h⟩
  | issuer k =>
    simp only [StateInterface.step, Spec.Store.step, getIss]
    cases hs : a.sess k with
    | none => simp only [getState_none h hop hs]; exact ⟨rfl, h⟩
    | some s =>
      obtain ⟨o, ho, _, hr⟩ := getState_some h hop hs
      have hi := hr.iss
      simp only [ho, Dict.getItem]
      by_cases he : s.iss = ""
      · rw [if_pos he] at hi
        simp only [hi, if_pos he]
        split <;> exact ⟨rfl, h⟩
      · rw [if_neg he] at hi
        have : o.isEmpty = false := by cases o <;> simp_all
        simp only [hi, if_neg he, this]
        exact ⟨rfl, h⟩
  | lookup x v =>
    simp only [StateInterface.step, Spec.Store.step, getStateByX]
    have hi := h.idx x v
    cases hx : a.idx x v with
    | none => rw [hx] at hi; simp only [Option.map_none] at hi; simp only [hi]; exact ⟨rfl, h⟩
    | some k =>
      rw [hx] at hi; simp only [Option.map_some] at hi
      simp only [hi, if_neg (h.ptr x v k hx)]; exact ⟨rfl, h⟩

/-- Whole histories. -/
theorem R_run {K : String → Prop} (hK : KeySpace K) (ops : List Op) :
    ∀ {db : DB} {a : Store}, R K db a → (∀ op ∈ ops, OpOk K op) →
      (StateInterface.run ops db).1 = (Spec.Store.run ops a).1 ∧
      R K (StateInterface.run ops db).2 (Spec.Store.run ops a).2 := by
  induction ops with
  | nil => intro db a h _; exact ⟨rfl, h⟩
  | cons op ops ih =>
    intro db a h hops
    have h1 := R_step hK h (hops op (by simp))
    have h2 := ih h1.2 (fun o ho => hops o (by simp [ho]))
    simp only [StateInterface.run, Spec.Store.run, h1.1, h2.1, true_and]
    exact h2.2

end Verif.StoreRefine
