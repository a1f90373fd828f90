import Verif.Lemmas.World
import Verif.Spec.Session
import Verif.Lemmas.StateInterface
/-!
# C22, C23: what the tokens stored for a session are good for
-/

namespace Verif.Props
open Verif Handler Service Spec.Session

/-! ## C22 -/

theorem findTokens_unlimited {now : Int} {db : DB} {k : String} (ts : List String) :
    ∀ {f f' : Found}, findTokens now db k ts f = .ok f' →
      f'.indefinite = f.indefinite ++ (ts.filterMap (unlimited db k)).map (fun t => (t, 0)) := by
  induction ts with
  | nil => intro f f' h; injection h with h; subst h; simp
  | cons t ts ih =>
    intro f f' h
    unfold findTokens at h
    cases hg : StateInterface.getItem db t k with
    | error e =>
      rw [hg] at h
      have hu : unlimited db k t = none := by simp [unlimited, hg]
      rw [List.filterMap_cons, hu]
      split at h
      · exact ih h
      · cases h
      · next e' => cases e'
    | ok r =>
      rw [hg] at h
      simp only at h
      cases hf : foundIn now r f with
      | error e => rw [hf] at h; cases h
      | ok f1 =>
        rw [hf] at h
        simp only at h
        have ih' := ih h
        rw [ih']
        have hu : unlimited db k t = match Dict.get? r "__expires_at" with
            | none => Dict.get? r "access_token"
            | some _ => none := by
          simp only [unlimited, hg]; cases Dict.get? r "__expires_at" <;> rfl
        rw [List.filterMap_cons, hu]
        unfold foundIn at hf
        cases ha : Dict.get? r "access_token" with
        | none =>
          rw [ha] at hf; injection hf with hf; subst hf
          cases Dict.get? r "__expires_at" <;> rfl
        | some tok =>
          rw [ha] at hf
          cases he : Dict.get? r "__expires_at" with
          | none => rw [he] at hf; injection hf with hf; subst hf; simp
          | some v =>
            rw [he] at hf
            cases v <;> first
              | (injection hf with hf; subst hf; split <;> rfl)
              | cases hf

theorem findTokens_best {now : Int} {db : DB} {k : String} (ts : List String) :
    ∀ {f f' : Found}, findTokens now db k ts f = .ok f' →
      (∀ t e, f.best = some (t, e) → e = f.exp) →
      (∀ t e, f'.best = some (t, e) → e = f'.exp) ∧ f.exp ≤ f'.exp ∧
      (∀ item ∈ ts, ∀ t e, ExpiresAt db k item t e → now < e → e ≤ f'.exp) ∧
      ((f'.best = f.best ∧ f'.exp = f.exp) ∨
        ∃ item ∈ ts, ∃ t, ExpiresAt db k item t f'.exp ∧ now < f'.exp ∧ f'.best = some (t, f'.exp)) := by
  induction ts with
  | nil => intro f f' h hb; injection h with h; subst h; exact ⟨hb, Int.le_refl _, by simp, Or.inl ⟨rfl, rfl⟩⟩
  | cons i ts ih =>
    intro f f' h hb
    unfold findTokens at h
    cases hg : StateInterface.getItem db i k with
    | error e =>
      rw [hg] at h
      have hno : ∀ t e, ¬ ExpiresAt db k i t e := by
        rintro t e ⟨r, h', _⟩; rw [hg] at h'; cases h'
      have hmain : findTokens now db k ts f = .ok f' := by
        split at h
        · exact h
        · cases h
        · next e' => cases e'
      obtain ⟨h1, h2, h3, h4⟩ := ih hmain hb
      refine ⟨h1, h2, ?_, ?_⟩
      · intro item hi t e he
        rcases List.mem_cons.1 hi with rfl | hi
        · exact absurd he (hno t e)
        · exact h3 item hi t e he
      · rcases h4 with h4 | ⟨item, hi, h4⟩
        · exact Or.inl h4
        · exact Or.inr ⟨item, List.mem_cons_of_mem _ hi, h4⟩
    | ok r =>
      rw [hg] at h
      simp only at h
      cases hf : foundIn now r f with
      | error e => rw [hf] at h; cases h
      | ok f1 =>
        rw [hf] at h
        simp only at h
        have step : (∀ t e, f1.best = some (t, e) → e = f1.exp) ∧ f.exp ≤ f1.exp ∧
            (∀ t e, ExpiresAt db k i t e → now < e → e ≤ f1.exp) ∧
            ((f1.best = f.best ∧ f1.exp = f.exp) ∨
              ∃ t, ExpiresAt db k i t f1.exp ∧ now < f1.exp ∧ f1.best = some (t, f1.exp)) := by
          unfold foundIn at hf
          cases ha : Dict.get? r "access_token" with
          | none =>
            rw [ha] at hf; injection hf with hf; subst hf
            refine ⟨hb, Int.le_refl _, ?_, Or.inl ⟨rfl, rfl⟩⟩
            rintro t e ⟨r', h', ht, _⟩
            rw [hg] at h'; injection h' with h'; subst h'; rw [ha] at ht; cases ht
          | some tok =>
            rw [ha] at hf
            cases he : Dict.get? r "__expires_at" with
            | none =>
              rw [he] at hf; injection hf with hf; subst hf
              refine ⟨hb, Int.le_refl _, ?_, Or.inl ⟨rfl, rfl⟩⟩
              rintro t e ⟨r', h', _, ht⟩
              rw [hg] at h'; injection h' with h'; subst h'; rw [he] at ht; cases ht
            | some v =>
              rw [he] at hf
              cases v with
              | int e =>
                injection hf with hf
                have huniq : ∀ t e', ExpiresAt db k i t e' → e' = e ∧ t = tok := by
                  rintro t e' ⟨r', h', ht, ht'⟩
                  rw [hg] at h'; injection h' with h'; subst h'
                  rw [he] at ht'; rw [ha] at ht
                  injection ht with ht; injection ht' with ht'; injection ht' with ht'
                  exact ⟨ht'.symm, ht.symm⟩
                by_cases hc : e > now ∧ e > f.exp
                · rw [if_pos hc] at hf; subst hf
                  refine ⟨?_, by simp only; omega, ?_, Or.inr ⟨tok, ⟨r, hg, ha, he⟩, hc.1, rfl⟩⟩
                  · intro t e' h'; injection h' with h'; injection h' with _ h'; exact h'.symm
                  · intro t e' h' _; rw [(huniq t e' h').1]; exact Int.le_refl _
                · rw [if_neg hc] at hf; subst hf
                  refine ⟨hb, Int.le_refl _, ?_, Or.inl ⟨rfl, rfl⟩⟩
                  intro t e' h' hl
                  rw [(huniq t e' h').1] at hl ⊢
                  by_cases h2 : e ≤ f.exp
                  · exact h2
                  · exact absurd ⟨hl, by omega⟩ hc
              | _ => cases hf
        obtain ⟨s1, s2, s3, s4⟩ := step
        obtain ⟨h1, h2, h3, h4⟩ := ih h s1
        refine ⟨h1, by omega, ?_, ?_⟩
        · intro item hi t e he hl
          rcases List.mem_cons.1 hi with rfl | hi
          · exact Int.le_trans (s3 t e he hl) h2
          · exact h3 item hi t e he hl
        · rcases h4 with ⟨h4a, h4b⟩ | ⟨item, hi, h4⟩
          · rcases s4 with ⟨s4a, s4b⟩ | ⟨t, s4⟩
            · exact Or.inl ⟨h4a.trans s4a, h4b.trans s4b⟩
            · rw [h4a, h4b]
              exact Or.inr ⟨i, List.mem_cons_self, t, s4⟩
          · exact Or.inr ⟨item, List.mem_cons_of_mem _ hi, h4⟩

theorem findTokens_ok {now : Int} {db : DB} {k : String} (ts : List String)
    (hs : ∀ t ∈ ts, Sound db k t) : ∀ f, ∃ f', findTokens now db k ts f = .ok f' := by
  induction ts with
  | nil => intro f; exact ⟨f, rfl⟩
  | cons t ts ih =>
    intro f
    unfold findTokens
    rcases hs t (by simp) with h | ⟨r, h, hv⟩
    · rw [h]; exact ih (fun t' h' => hs t' (by simp [h'])) f
    · rw [h]
      simp only
      have : ∃ f1, foundIn now r f = .ok f1 := by
        unfold foundIn
        split
        · exact ⟨_, rfl⟩
        · split
          · exact ⟨_, rfl⟩
          · exact ⟨_, rfl⟩
          · next v hne he =>
            obtain ⟨e, rfl⟩ := hv _ he
            exact absurd rfl (hne e)
      obtain ⟨f1, h1⟩ := this
      rw [h1]
      exact ih (fun t' h' => hs t' (by simp [h'])) f1

/-- **C22** (what is returned).  A returned token is a stored one without expiry time, reported with
expiry 0, or there is no such token and it is one that expires strictly later than now and not before any
other live one. -/
theorem C22_returned_token (x : Ext) (state : String) (c : Client) (t : Val) (e : Int)
    (h : validAccessToken x state c = .ok (t, e)) :
    (e = 0 ∧ ∃ item ∈ ["refresh_token_response", "token_response", "auth_response"],
      unlimited c.db state item = some t) ∨
    ((∀ item ∈ ["refresh_token_response", "token_response", "auth_response"],
        unlimited c.db state item = none) ∧
      x.now < e ∧
      (∃ item ∈ ["refresh_token_response", "token_response", "auth_response"],
        ExpiresAt c.db state item t e) ∧
      ∀ item ∈ ["refresh_token_response", "token_response", "auth_response"], ∀ t' e',
        ExpiresAt c.db state item t' e' → e' ≤ e ∨ e' ≤ x.now) := by
  unfold validAccessToken at h
  cases hf : findTokens x.now c.db state TOKEN_ITEMS {} with
  | error e => rw [hf] at h; cases h
  | ok f =>
    rw [hf] at h
    simp only at h
    have hu := findTokens_unlimited _ hf
    simp only [List.nil_append] at hu
    cases hi : f.indefinite with
    | cons p l =>
      rw [hi] at h hu
      injection h with h
      left
      have hm : p ∈ (TOKEN_ITEMS.filterMap (unlimited c.db state)).map (fun t => (t, (0 : Int))) := by
        rw [← hu]; simp
      obtain ⟨t', ht', hp⟩ := List.mem_map.1 hm
      obtain ⟨item, h1, h2⟩ := List.mem_filterMap.1 ht'
      subst hp
      injection h with h' h''
      subst h' h''
      exact ⟨rfl, item, h1, h2⟩
    | nil =>
      rw [hi] at h hu
      have hnone : ∀ item ∈ TOKEN_ITEMS, unlimited c.db state item = none := by
        intro item hit
        cases hc : unlimited c.db state item with
        | none => rfl
        | some t' =>
          have hm : (t', (0 : Int)) ∈ (TOKEN_ITEMS.filterMap (unlimited c.db state)).map (fun t => (t, (0 : Int))) :=
            List.mem_map.2 ⟨t', List.mem_filterMap.2 ⟨item, hit, hc⟩, rfl⟩
          rw [← hu] at hm; cases hm
      obtain ⟨h1, _, h3, h4⟩ := findTokens_best _ hf (by simp)
      right
      refine ⟨hnone, ?_⟩
      rcases h4 with ⟨hb, _⟩ | ⟨item, hit, t', hx, hlt, hb⟩
      · rw [hb] at h; cases h
      · rw [hb] at h
        injection h with h; injection h with h' h''
        subst h' h''
        refine ⟨hlt, ⟨item, hit, hx⟩, ?_⟩
        intro item' hit' t'' e'' he''
        by_cases hl : x.now < e''
        · exact Or.inl (h3 item' hit' t'' e'' he'' hl)
        · exact Or.inr (by omega)

/-- **C22** (first one wins).  If the responses are sound, the first token without expiry time is
returned. -/
theorem C22_first_unlimited_wins (x : Ext) (state : String) (c : Client) (before after : List String)
    (item : String) (t : Val)
    (hs : ∀ i ∈ ["refresh_token_response", "token_response", "auth_response"], Sound c.db state i)
    (hord : ["refresh_token_response", "token_response", "auth_response"] = before ++ item :: after)
    (hb : ∀ i ∈ before, unlimited c.db state i = none) (ht : unlimited c.db state item = some t) :
    validAccessToken x state c = .ok (t, 0) := by
  obtain ⟨f, hf⟩ := findTokens_ok (now := x.now) TOKEN_ITEMS hs {}
  have hu := findTokens_unlimited _ hf
  have hl : TOKEN_ITEMS.filterMap (unlimited c.db state)
      = t :: after.filterMap (unlimited c.db state) := by
    rw [show TOKEN_ITEMS = before ++ item :: after from hord, List.filterMap_append,
      List.filterMap_eq_nil_iff.2 hb, List.filterMap_cons, ht]
    rfl
  rw [hl] at hu
  simp only [List.nil_append, List.map_cons] at hu
  unfold validAccessToken
  rw [hf]
  simp only [hu]

/-- **C22** (a token is found whenever there is one).  If the responses are sound, an exception is
raised exactly if every stored access token has expired. -/
theorem C22_refused_iff_all_expired (x : Ext) (hnow : 0 ≤ x.now) (state : String) (c : Client)
    (hs : ∀ i ∈ ["refresh_token_response", "token_response", "auth_response"], Sound c.db state i) :
    validAccessToken x state c = .error .oidcServiceError ↔
      ∀ i ∈ ["refresh_token_response", "token_response", "auth_response"],
        unlimited c.db state i = none ∧ ∀ t e, ExpiresAt c.db state i t e → e ≤ x.now := by
  obtain ⟨f, hf⟩ := findTokens_ok (now := x.now) TOKEN_ITEMS hs {}
  have hu := findTokens_unlimited _ hf
  simp only [List.nil_append] at hu
  obtain ⟨h1, _, h3, h4⟩ := findTokens_best _ hf (by simp)
  have hv : validAccessToken x state c = match f.indefinite with
      | t :: _ => .ok t
      | [] => match f.best with
        | some t => .ok t
        | none => .error .oidcServiceError := by
    unfold validAccessToken; rw [hf]; simp only
    cases f.indefinite <;> first | rfl | (cases f.best <;> rfl)
  rw [hv]
  constructor
  · intro h
    cases hi : f.indefinite with
    | cons p l => rw [hi] at h; cases h
    | nil =>
      rw [hi] at h hu
      simp only at h
      intro i hit
      constructor
      · cases hc : unlimited c.db state i with
        | none => rfl
        | some t' =>
          have hm : (t', (0 : Int)) ∈ (TOKEN_ITEMS.filterMap (unlimited c.db state)).map (fun t => (t, (0 : Int))) :=
            List.mem_map.2 ⟨t', List.mem_filterMap.2 ⟨i, hit, hc⟩, rfl⟩
          rw [← hu] at hm; cases hm
      · intro t e he
        rcases h4 with ⟨_, hexp⟩ | ⟨_, _, _, _, _, hb⟩
        · have h0 : f.exp = 0 := hexp
          by_cases hl : x.now < e
          · have := h3 i hit t e he hl
            omega
          · omega
        · rw [hb] at h; cases h
  · intro h
    have hnil : f.indefinite = [] := by
      rw [hu, List.filterMap_eq_nil_iff.2 (fun i hi => (h i hi).1)]; rfl
    rw [hnil]
    rcases h4 with ⟨hb, _⟩ | ⟨i, hi, t, hx, hlt, _⟩
    · rw [hb]
    · have := (h i hi).2 t _ hx
      omega

/-- A store for examples: session `s` with two access tokens, one of which has expired at 1500. -/
def tokenDb : DB := [("s", .doc [("iss", .str "https://op"),
  ("auth_response", .obj [("access_token", .str "old"), ("__expires_at", .int 1200)]),
  ("token_response", .obj [("access_token", .str "new"), ("__expires_at", .int 1800)])])]

/-- Non-vacuity of C22: the newer token is found at 1500, none at 2000, and one without expiry wins. -/
example :
    validAccessToken (World.ext 1500 "" "" "") "s" { db := tokenDb } = .ok (.str "new", 1800) ∧
    validAccessToken (World.ext 1800 "" "" "") "s" { db := tokenDb } = .error .oidcServiceError ∧
    validAccessToken (World.ext 1500 "" "" "") "s"
      { db := (StateInterface.storeItem [("access_token", .str "ever")] "auth_response" "s" tokenDb).2 }
        = .ok (.str "ever", 0) := by
  refine ⟨rfl, rfl, rfl⟩

/-! ## C23 -/

/-- The item types of the responses, oldest first. -/
theorem multiExtend_single (db : DB) (k p : String) (st : Obj) (hst : StateInterface.getState db k = .ok st)
    (items : List String) :
    ∀ (args : Obj),
    (∀ i ∈ items, ∀ r, StateInterface.getItem db i k = .ok r → Dict.get? r (Msg.verifiedName p) = none) →
    (∀ i ∈ items, StateInterface.getItem db i k = .error .keyError ∨
      ∃ r, StateInterface.getItem db i k = .ok r) →
    ∃ a, StateInterface.multiExtendLoop st [p] false items args = .ok a ∧
      ((∃ i v, Latest db k p items i v ∧ a = Dict.set args p v) ∨
       ((∀ i ∈ items, ∀ r, StateInterface.getItem db i k = .ok r → Dict.get? r p = none) ∧ a = args)) := by
  have hitem : ∀ i, StateInterface.getItem db i k = StateInterface.asItem (Dict.get? st i) := by
    intro i; simp [StateInterface.getItem, hst]
  induction items with
  | nil => intro args _ _; exact ⟨args, rfl, Or.inr ⟨by simp, rfl⟩⟩
  | cons i items ih =>
    intro args hnv hok
    have ih' := fun args => ih args (fun j hj => hnv j (by simp [hj])) (fun j hj => hok j (by simp [hj]))
    unfold StateInterface.multiExtendLoop
    have hoki := hok i (by simp)
    rw [hitem i] at hoki
    cases hg : Dict.get? st i with
    | none =>
      simp only
      obtain ⟨a, ha, h⟩ := ih' args
      refine ⟨a, ha, ?_⟩
      rcases h with ⟨j, v, ⟨b, af, e, h1, h2⟩, h'⟩ | ⟨h', he⟩
      · exact Or.inl ⟨j, v, ⟨i :: b, af, by rw [e]; rfl, h1, h2⟩, h'⟩
      · refine Or.inr ⟨?_, he⟩
        intro j hj r hr
        rcases List.mem_cons.1 hj with rfl | hj
        · rw [hitem, hg] at hr; cases hr
        · exact h' j hj r hr
    | some w =>
      cases w with
      | obj o =>
        simp only
        have hgo : StateInterface.getItem db i k = .ok (Msg.ofDict o) := by rw [hitem, hg]; rfl
        have hv : Dict.get? (Msg.ofDict o) (Msg.verifiedName p) = none := hnv i (by simp) _ hgo
        obtain ⟨a, ha, h⟩ := ih' ([p].foldl (StateInterface.copyParam false (Msg.ofDict o)) args)
        refine ⟨a, ha, ?_⟩
        have hcp : [p].foldl (StateInterface.copyParam false (Msg.ofDict o)) args =
            match Dict.get? (Msg.ofDict o) p with
            | some v => Dict.set args p v
            | none => args := by
          simp only [List.foldl_cons, List.foldl_nil, StateInterface.copyParam, hv]
          rfl
        rcases h with ⟨j, v, ⟨b, af, e, h1, h2⟩, h'⟩ | ⟨h', he⟩
        · refine Or.inl ⟨j, v, ⟨i :: b, af, by rw [e]; rfl, h1, h2⟩, ?_⟩
          rw [h', hcp]
          cases Dict.get? (Msg.ofDict o) p with
          | none => rfl
          | some w => simp only; exact Dict.set_set args p w v
        · rw [hcp] at he
          cases hp : Dict.get? (Msg.ofDict o) p with
          | none =>
            rw [hp] at he
            refine Or.inr ⟨?_, he⟩
            intro j hj r hr
            rcases List.mem_cons.1 hj with rfl | hj
            · rw [hgo] at hr; injection hr with hr; subst hr; exact hp
            · exact h' j hj r hr
          | some w =>
            rw [hp] at he
            exact Or.inl ⟨i, w, ⟨[], items, rfl, ⟨_, hgo, hp⟩, h'⟩, he⟩
      | _ =>
        rw [hg] at hoki
        rcases hoki with h | ⟨r, h⟩ <;> cases h

theorem Latest.unique {db : DB} {k claim : String} {items : List String} (hn : items.Nodup)
    {i j : String} {v w : Val} (h : Latest db k claim items i v) (h' : Latest db k claim items j w) :
    i = j ∧ v = w := by
  obtain ⟨b, a, e, ⟨r, hr, hv⟩, hl⟩ := h
  obtain ⟨b', a', e', ⟨r', hr', hv'⟩, hl'⟩ := h'
  have key : i = j := by
    have hj : j ∈ items := by rw [e']; simp
    have hi : i ∈ items := by rw [e]; simp
    by_cases hij : i = j
    · exact hij
    · exfalso
      have hj1 : j ∈ b := by
        rw [e] at hj
        rcases List.mem_append.1 hj with h | h
        · exact h
        · rcases List.mem_cons.1 h with h | h
          · exact absurd h.symm hij
          · have := hl j h r' hr'; rw [hv'] at this; cases this
      have hi1 : i ∈ b' := by
        rw [e'] at hi
        rcases List.mem_append.1 hi with h | h
        · exact h
        · rcases List.mem_cons.1 h with h | h
          · exact absurd h hij
          · have := hl' i h r hr; rw [hv] at this; cases this
      obtain ⟨p, q, hpq⟩ := List.append_of_mem hj1
      have h1 : items = p ++ j :: (q ++ i :: a) := by rw [e, hpq]; simp
      -- `j` occurs once, so the parts around it agree
      have : q ++ i :: a = a' := by
        have hnd := hn
        rw [e'] at h1
        have hjb : j ∉ b' := by
          intro hm; rw [e'] at hnd
          exact (List.nodup_append.1 hnd).2.2 j hm j (by simp) rfl
        have hjp : j ∉ p := by
          intro hm; rw [show items = _ from e'.trans h1] at hnd
          exact (List.nodup_append.1 hnd).2.2 j hm j (by simp) rfl
        exact (split_unique hjb hjp h1).2.symm
      have hi2 : i ∈ a' := by rw [← this]; simp
      have := hl' i hi2 r hr
      rw [hv] at this; cases this
  subst key
  refine ⟨rfl, ?_⟩
  rw [hr] at hr'; injection hr' with hr'; subst hr'
  rw [hv] at hv'; injection hv'
where
  split_unique {α : Type} {j : α} : ∀ {b p a s : List α}, j ∉ b → j ∉ p → b ++ j :: a = p ++ j :: s →
      b = p ∧ a = s := by
    intro b
    induction b with
    | nil =>
      intro p a s _ hp h
      cases p with
      | nil => simp at h; exact ⟨rfl, h⟩
      | cons y p => simp at h; exact absurd h.1 (fun e => hp (by simp [e]))
    | cons z b ih =>
      intro p a s hb hp h
      cases p with
      | nil => simp at h; exact absurd h.1 (fun e => hb (by simp [e]))
      | cons y p =>
        simp at h
        obtain ⟨h1, h2⟩ := ih (fun hm => hb (by simp [hm])) (fun hm => hp (by simp [hm])) h.2
        exact ⟨by rw [h.1, h1], h2⟩

/-- **C23**.  For a session whose responses are documents: `True` exactly if the latest response with a
verified ID Token has one that expires strictly later than now; `False` exactly if there is none, or its
expiry time has come. -/
theorem C23_active_iff (x : Ext) (state : String) (c : Client) (hex : Exists c.db state)
    (hdoc : ∀ i ∈ ["auth_response", "token_response", "refresh_token_response"],
      StateInterface.getItem c.db i state = .error .keyError ∨
      ∃ r, StateInterface.getItem c.db i state = .ok r ∧
        Dict.get? r "__verified___verified_id_token" = none) :
    (hasActive x state c = .ok true ↔ ∃ item idt exp,
      Latest c.db state "__verified_id_token" ["auth_response", "token_response", "refresh_token_response"]
        item (.obj idt) ∧ Dict.get? idt "exp" = some (.int exp) ∧ x.now < exp) ∧
    (hasActive x state c = .ok false ↔
      (∀ i ∈ ["auth_response", "token_response", "refresh_token_response"], ∀ r,
        StateInterface.getItem c.db i state = .ok r → Dict.get? r "__verified_id_token" = none) ∨
      ∃ item idt exp,
        Latest c.db state "__verified_id_token" ["auth_response", "token_response", "refresh_token_response"]
          item (.obj idt) ∧ Dict.get? idt "exp" = some (.int exp) ∧ exp ≤ x.now) := by
  obtain ⟨st, hst⟩ := hex
  have hv : Msg.verifiedName (Msg.verifiedName "id_token") = "__verified___verified_id_token" := by decide
  have hv1 : Msg.verifiedName "id_token" = "__verified_id_token" := by decide
  obtain ⟨a, ha, h⟩ := multiExtend_single c.db state "__verified_id_token" st hst RESPONSES []
    (fun i hi r hr => by
      rcases hdoc i hi with h | ⟨r', h, h'⟩
      · rw [hr] at h; cases h
      · rw [hr] at h; injection h with h; subst h
        rw [show Msg.verifiedName "__verified_id_token" = "__verified___verified_id_token" from by decide]
        exact h')
    (fun i hi => by
      rcases hdoc i hi with h | ⟨r', h, _⟩
      · exact Or.inl h
      · exact Or.inr ⟨r', h⟩)
  have hm : StateInterface.multipleExtendRequestArgs c.db [] state [Msg.verifiedName "id_token"] RESPONSES
      = .ok a := by
    rw [hv1]; simp only [StateInterface.multipleExtendRequestArgs, hst]; exact ha
  unfold hasActive
  rw [hm]
  simp only [hv1]
  rcases h with ⟨i, v, hl, rfl⟩ | ⟨hnone, rfl⟩
  · have hne : (Dict.set ([] : Obj) "__verified_id_token" v).isEmpty = false := rfl
    have hget : Dict.getItem (Dict.set ([] : Obj) "__verified_id_token" v) "__verified_id_token" = .ok v := by
      simp [Dict.get?_set_self]
    simp only [hne, Bool.false_eq_true, if_false, hget]
    have huniq : ∀ {item w}, Latest c.db state "__verified_id_token" RESPONSES item w → w = v :=
      fun h' => (Latest.unique (by decide) h' hl).2
    have hnn : ¬ ∀ i ∈ ["auth_response", "token_response", "refresh_token_response"], ∀ r,
        StateInterface.getItem c.db i state = .ok r → Dict.get? r "__verified_id_token" = none := by
      intro hall
      obtain ⟨b, af, e, ⟨r, hr, hrv⟩, _⟩ := hl
      have := hall i (by rw [show (["auth_response", "token_response", "refresh_token_response"] :
        List String) = _ from e]; simp) r hr
      rw [hrv] at this; cases this
    have hkey : ∀ idt exp, v = .obj idt → Dict.get? idt "exp" = some exp → valItem v "exp" = .ok exp := by
      rintro idt exp rfl h'; simp [valItem, h']
    constructor
    · constructor
      · intro h
        cases v with
        | obj idt =>
          cases he : Dict.get? idt "exp" with
          | none => simp [valItem, Dict.getItem, he] at h
          | some w =>
            rw [hkey idt w rfl he] at h
            cases w with
            | int e => simp at h; exact ⟨i, idt, e, hl, he, h⟩
            | _ => simp at h
        | _ => simp [valItem] at h
      · rintro ⟨item, idt, e, h1, h2, h3⟩
        rw [hkey idt _ (huniq h1).symm h2]
        simp [h3]
    · constructor
      · intro h
        right
        cases v with
        | obj idt =>
          cases he : Dict.get? idt "exp" with
          | none => simp [valItem, Dict.getItem, he] at h
          | some w =>
            rw [hkey idt w rfl he] at h
            cases w with
            | int e => simp at h; exact ⟨i, idt, e, hl, he, h⟩
            | _ => simp at h
        | _ => simp [valItem] at h
      · rintro (h | ⟨item, idt, e, h1, h2, h3⟩)
        · exact absurd h hnn
        · rw [hkey idt _ (huniq h1).symm h2]
          simp [h3]
  · simp only [List.isEmpty_nil, if_true]
    constructor
    · constructor
      · intro h; simp at h
      · rintro ⟨item, idt, e, ⟨b, af, eq, ⟨r, hr, hrv⟩, _⟩, _⟩
        have := hnone item (by rw [show RESPONSES = _ from eq]; simp) r hr
        rw [hrv] at this; cases this
    · exact ⟨fun _ => Or.inl hnone, fun _ => trivial⟩

/-- An unknown session has no answer. -/
theorem C23_unknown_session (x : Ext) (state : String) (c : Client) (h : Dict.get? c.db state = none) :
    hasActive x state c = .error .keyError := by
  unfold hasActive
  simp [StateInterface.multipleExtendRequestArgs, StateInterface.getState, h]

/-- A store for examples: the ID Token of the token response is newer than the one of the authorization
response. -/
def idTokenDb : DB := [("s", .doc [("iss", .str "https://op"),
  ("auth_response", .obj [("__verified_id_token", .obj [("sub", .str "a"), ("exp", .int 5000)])]),
  ("token_response", .obj [("__verified_id_token", .obj [("sub", .str "a"), ("exp", .int 2000)])])])]

/-- Non-vacuity of C23. -/
example :
    hasActive (World.ext 1999 "" "" "") "s" { db := idTokenDb } = .ok true ∧
    hasActive (World.ext 2000 "" "" "") "s" { db := idTokenDb } = .ok false ∧
    hasActive (World.ext 1999 "" "" "") "s" { db := tokenDb } = .ok false ∧
    Latest idTokenDb "s" "__verified_id_token" ["auth_response", "token_response", "refresh_token_response"]
      "token_response" (.obj [("sub", .str "a"), ("exp", .int 2000)]) := by
  refine ⟨rfl, rfl, rfl, ["auth_response"], ["refresh_token_response"], rfl, ⟨_, rfl, rfl⟩, ?_⟩
  intro later hl r hr
  simp only [List.mem_cons, List.not_mem_nil, or_false] at hl
  subst hl
  cases hr

end Verif.Props
