import Verif.Model.Discovery
import Verif.Spec.Discovery
/-!
# Lemmas about discovery
-/

namespace Verif.Discovery
open Verif Verif.Spec.Discovery

theorem slash_iff (s : String) : Str.endsWith s "/" = true ↔ ∃ t, s = t ++ "/" := Str.endsWith_iff s "/"

theorem chop_slash (t : String) : chop (t ++ "/") = t := by
  unfold chop
  apply String.toList_inj.1
  simp [String.toList_append]

theorem append_slash_inj {a b : String} (h : a ++ "/" = b ++ "/") : a = b := by
  have := congrArg chop h
  simpa [chop_slash] using this

theorem adaptIssuer_eq_iff (r i : String) : adaptIssuer r i = r ↔ SameIssuer r i := by
  unfold adaptIssuer SameIssuer
  by_cases hr : Str.endsWith r "/" = true
  · rw [if_pos hr]
    obtain ⟨t, ht⟩ := (slash_iff r).1 hr
    by_cases hi : Str.endsWith i "/" = true
    · rw [if_pos hi]
      obtain ⟨u, hu⟩ := (slash_iff i).1 hi
      constructor
      · exact fun h => Or.inl h.symm
      · rintro (h | ⟨_, h⟩ | ⟨_, h⟩)
        · exact h.symm
        · exact absurd ⟨u, hu⟩ h
        · exact absurd ⟨t, ht⟩ h
    · rw [if_neg hi]
      have hi' : ¬ ∃ t, i = t ++ "/" := fun h => hi ((slash_iff i).2 h)
      constructor
      · exact fun h => Or.inr (Or.inl ⟨h.symm, hi'⟩)
      · rintro (h | ⟨h, _⟩ | ⟨_, h⟩)
        · exact absurd ⟨t, h ▸ ht⟩ hi'
        · exact h.symm
        · exact absurd ⟨t, ht⟩ h
  · rw [if_neg hr]
    have hr' : ¬ ∃ t, r = t ++ "/" := fun h => hr ((slash_iff r).2 h)
    by_cases hi : Str.endsWith i "/" = true
    · rw [if_pos hi]
      obtain ⟨u, hu⟩ := (slash_iff i).1 hi
      subst hu
      rw [chop_slash]
      constructor
      · exact fun h => Or.inr (Or.inr ⟨by rw [h], hr'⟩)
      · rintro (h | ⟨h, _⟩ | ⟨h, _⟩)
        · exact absurd ⟨u, h⟩ hr'
        · exact absurd ⟨_, h⟩ hr'
        · exact append_slash_inj h
    · rw [if_neg hi]
      have hi' : ¬ ∃ t, i = t ++ "/" := fun h => hi ((slash_iff i).2 h)
      constructor
      · exact fun h => Or.inl h.symm
      · rintro (h | ⟨h, _⟩ | ⟨h, _⟩)
        · exact h.symm
        · exact absurd ⟨_, h⟩ hr'
        · exact absurd ⟨_, h⟩ hi'

theorem name_endpoint {s t : Srv} (h : s.name = t.name) : s.endpointName = t.endpointName := by
  cases s <;> cases t <;> first | rfl | (exfalso; revert h; decide)

theorem serviceByEndpoint_name {services : List Srv} {e : String} {s : Srv}
    (h : serviceByEndpoint services e = some s) : s.endpointName = e ∧ s ∈ services := by
  unfold serviceByEndpoint at h
  refine ⟨by simpa using List.find?_some h, List.mem_of_find?_eq_some h⟩

theorem setEndpoints_get (services : List Srv) (s : Srv) (resp : Obj) (e : Dict Val)
    (hn : (Dict.keys resp).Nodup) :
    Dict.get? (setEndpoints services resp e) s.name =
      if Str.endsWith s.endpointName "_endpoint" = true ∧
          (serviceByEndpoint services s.endpointName).map Srv.name = some s.name then
        (Dict.get? resp s.endpointName).or (Dict.get? e s.name)
      else Dict.get? e s.name := by
  induction resp generalizing e with
  | nil => simp [setEndpoints]
  | cons p resp ih =>
    obtain ⟨key, val⟩ := p
    simp only [Dict.keys, List.map_cons, List.nodup_cons] at hn
    have hnone : Dict.get? resp key = none := (Dict.get?_eq_none_iff resp key).2 hn.1
    rw [setEndpoints, ih _ hn.2]
    by_cases hk : key = s.endpointName
    · subst hk
      rw [hnone, Dict.get?_cons, if_pos rfl]
      unfold setEndpoint
      by_cases he : Str.endsWith s.endpointName "_endpoint" = true
      · simp only [he, true_and, if_true]
        cases hs : serviceByEndpoint services s.endpointName with
        | none => simp
        | some s' =>
          by_cases hss : s'.name = s.name
          · simp [hss]
          · simp only [Option.map_some, Option.some.injEq, hss, if_false]
            exact Dict.get?_set_ne _ _ hss
      · simp [he]
    · rw [Dict.get?_cons, if_neg hk]
      have hsame : Dict.get? (setEndpoint services e key val) s.name = Dict.get? e s.name := by
        unfold setEndpoint
        split
        · cases hs : serviceByEndpoint services key with
          | none => rfl
          | some s' =>
            have h1 := (serviceByEndpoint_name hs).1
            refine Dict.get?_set_ne _ _ (fun h => hk ?_)
            rw [← h1, name_endpoint h]
        · rfl
      rw [hsame]

/-! ## negotiation -/

theorem inVal_list (v : Val) (l : List Val) : inVal v (.list l) = .ok (decide (v ∈ l)) := rfl

theorem supportedOnly_list (l ps : List Val) :
    supportedOnly (.list l) ps = .ok (ps.filter (fun v => decide (v ∈ l))) := by
  induction ps with
  | nil => rfl
  | cons v ps ih =>
    simp only [supportedOnly, inVal_list, ih, List.filter_cons]

theorem firstSupported_list (l ps : List Val) :
    firstSupported (.list l) ps = .ok (ps.find? (fun v => decide (v ∈ l))) := by
  induction ps with
  | nil => rfl
  | cons v ps ih =>
    by_cases h : v ∈ l
    · simp [firstSupported, inVal_list, h]
    · simp [firstSupported, inVal_list, h, ih]

theorem find_mostPreferred {l ps : List Val} {v : Val}
    (h : ps.find? (fun v => decide (v ∈ l)) = some v) : MostPreferred ps l v := by
  induction ps with
  | nil => simp at h
  | cons p ps ih =>
    rw [List.find?_cons] at h
    by_cases hp : p ∈ l
    · simp only [hp, decide_true] at h
      cases h
      exact ⟨[], ps, rfl, hp, by simp⟩
    · simp only [hp, decide_false] at h
      obtain ⟨b, a, h1, h2, h3⟩ := ih h
      refine ⟨p :: b, a, by rw [h1]; rfl, h2, ?_⟩
      intro x hx
      rcases List.mem_cons.1 hx with rfl | hx
      · exact hp
      · exact h3 x hx

theorem matchLoop_other (kind : String → Option Bool) (prefs pcr : Obj) (k : String) :
    ∀ (l : List (String × String)) (b : Obj), k ∉ l.map Prod.fst →
      Dict.get? (matchLoop kind prefs pcr l b).2 k = Dict.get? b k := by
  intro l
  induction l with
  | nil => intro b _; rfl
  | cons p l ih =>
    obtain ⟨pref, prov⟩ := p
    intro b hk
    simp only [List.map_cons, List.mem_cons, not_or] at hk
    rw [matchLoop]
    cases hp : Dict.get? prefs pref with
    | none => exact ih b hk.2
    | some vals =>
      simp only
      cases hm : matchOne (kind pref) vals (providerVals pcr pref prov vals) with
      | error e => rfl
      | ok r =>
        simp only
        have hb : Dict.get? (setOpt b pref r) k = Dict.get? b k := by
          cases r with
          | none => rfl
          | some v => exact Dict.get?_set_ne _ _ (fun h => hk.1 h.symm)
        by_cases hh : Dict.has (setOpt b pref r) pref = true
        · rw [if_pos hh, ih _ hk.2, hb]
        · rw [if_neg hh]; exact hb

/-- What a successful negotiation of one preference gives. -/
theorem matchLoop_get (kind : String → Option Bool) (prefs pcr : Obj) (pref prov : String)
    (vals : Val) (hv : Dict.get? prefs pref = some vals) :
    ∀ (l : List (String × String)) (b b' : Obj), (l.map Prod.fst).Nodup → (pref, prov) ∈ l →
      matchLoop kind prefs pcr l b = (.ok (), b') →
      ∃ r, matchOne (kind pref) vals (providerVals pcr pref prov vals) = .ok r ∧
        ∃ v, Dict.get? b' pref = some v ∧ (r = some v ∨ r = none ∧ Dict.get? b pref = some v) := by
  intro l
  induction l with
  | nil => intro b b' _ h; simp at h
  | cons p l ih =>
    obtain ⟨pr, pv⟩ := p
    intro b b' hn hmem hrun
    simp only [List.map_cons, List.nodup_cons] at hn
    rw [matchLoop] at hrun
    rcases List.mem_cons.1 hmem with h | h
    · cases h
      simp only [hv] at hrun
      cases hm : matchOne (kind pref) vals (providerVals pcr pref prov vals) with
      | error e => rw [hm] at hrun; simp at hrun
      | ok r =>
        rw [hm] at hrun
        simp only at hrun
        refine ⟨r, rfl, ?_⟩
        by_cases hh : Dict.has (setOpt b pref r) pref = true
        · rw [if_pos hh] at hrun
          have hoth := matchLoop_other kind prefs pcr pref l
            (setOpt b pref r) hn.1
          rw [hrun] at hoth
          simp only at hoth
          cases r with
          | none =>
            obtain ⟨v, hv'⟩ := Option.isSome_iff_exists.1 hh
            simp only [setOpt] at hoth hv'
            exact ⟨v, by rw [hoth, hv'], Or.inr ⟨rfl, hv'⟩⟩
          | some v =>
            simp only [setOpt, Dict.get?_set_self] at hoth
            exact ⟨v, hoth, Or.inl rfl⟩
        · rw [if_neg hh] at hrun; simp at hrun
    · have hne : pr ≠ pref := by
        rintro rfl
        exact hn.1 (List.mem_map.2 ⟨_, h, rfl⟩)
      cases hp : Dict.get? prefs pr with
      | none => rw [hp] at hrun; exact ih b b' hn.2 h hrun
      | some vs =>
        simp only [hp] at hrun
        cases hm : matchOne (kind pr) vs (providerVals pcr pr pv vs) with
        | error e => rw [hm] at hrun; simp at hrun
        | ok r =>
          rw [hm] at hrun
          simp only at hrun
          by_cases hh : Dict.has (setOpt b pr r) pr = true
          · rw [if_pos hh] at hrun
            obtain ⟨r', h1, v, h2, h3⟩ := ih _ b' hn.2 h hrun
            refine ⟨r', h1, v, h2, ?_⟩
            have hb : Dict.get? (setOpt b pr r) pref = Dict.get? b pref := by
              cases r with
              | none => rfl
              | some v => exact Dict.get?_set_ne _ _ hne
            rw [hb] at h3
            exact h3
          · rw [if_neg hh] at hrun; simp at hrun

/-- If one preference cannot be matched, the whole negotiation does not succeed. -/
theorem matchLoop_fail (kind : String → Option Bool) (prefs pcr : Obj) (pref prov : String)
    (vals : Val) (hv : Dict.get? prefs pref = some vals)
    (hm : matchOne (kind pref) vals (providerVals pcr pref prov vals) = .ok none)
    (l : List (String × String)) (b : Obj) (hn : (l.map Prod.fst).Nodup) (hl : (pref, prov) ∈ l)
    (hb : Dict.get? b pref = none) :
    ∃ e b', matchLoop kind prefs pcr l b = (.error e, b') := by
  rcases h : matchLoop kind prefs pcr l b with ⟨r, b'⟩
  cases r with
  | error e => exact ⟨e, b', rfl⟩
  | ok u =>
    obtain ⟨r, h1, v, h2, h3⟩ := matchLoop_get kind prefs pcr pref prov vals hv l b b' hn hl h
    rw [hm] at h1
    cases h1
    rcases h3 with h3 | ⟨_, h3⟩
    · cases h3
    · rw [hb] at h3; cases h3

theorem restLoop_keep (kind : String → Option Bool) (k : String) :
    ∀ (l : Obj) (b : Obj), Dict.get? b k ≠ none →
      Dict.get? (restLoop kind l b).2 k = Dict.get? b k := by
  intro l
  induction l with
  | nil => intro b _; rfl
  | cons p l ih =>
    obtain ⟨key, val⟩ := p
    intro b hb
    rw [restLoop]
    split
    · exact ih b hb
    · next hk =>
      cases plainValue (kind key) val with
      | error e => rfl
      | ok v =>
        simp only
        split
        · exact ih b hb
        · have hne : key ≠ k := by
            rintro rfl
            simp only [Dict.has, Bool.not_eq_true, Option.isSome_eq_false_iff,
              Option.isNone_iff_eq_none] at hk
            exact hb hk
          rw [ih _ (by rw [Dict.get?_set_ne _ _ hne]; exact hb), Dict.get?_set_ne _ _ hne]

theorem restLoop_set (kind : String → Option Bool) (k : String) (val : Val)
    (hk : k ∉ PREFERENCE2PROVIDER.map Prod.fst) :
    ∀ (l b b' : Obj), (Dict.keys l).Nodup → Dict.get? l k = some val → Dict.get? b k = none →
      restLoop kind l b = (.ok (), b') →
      ∃ v, plainValue (kind k) val = .ok v ∧ Dict.get? b' k = some v := by
  intro l
  induction l with
  | nil => intro b b' _ h; simp at h
  | cons p l ih =>
    obtain ⟨key, va⟩ := p
    intro b b' hn hl hb hrun
    simp only [Dict.keys, List.map_cons, List.nodup_cons] at hn
    rw [Dict.get?_cons] at hl
    rw [restLoop] at hrun
    by_cases hkk : key = k
    · subst hkk
      rw [if_pos rfl] at hl
      cases hl
      rw [if_neg (by simp [Dict.has, hb])] at hrun
      cases hp : plainValue (kind key) val with
      | error e => rw [hp] at hrun; simp at hrun
      | ok v =>
        rw [hp] at hrun
        simp only at hrun
        rw [if_neg hk] at hrun
        refine ⟨v, rfl, ?_⟩
        have := restLoop_keep kind key l (Dict.set b key v) (by simp)
        rw [hrun] at this
        simpa using this
    · rw [if_neg hkk] at hl
      split at hrun
      · exact ih b b' hn.2 hl hb hrun
      · cases hp : plainValue (kind key) va with
        | error e => rw [hp] at hrun; simp at hrun
        | ok v =>
          rw [hp] at hrun
          simp only at hrun
          split at hrun
          · exact ih b b' hn.2 hl hb hrun
          · exact ih _ b' hn.2 hl (by rw [Dict.get?_set_ne _ _ hkk]; exact hb) hrun

/-- The pieces of a successful `matchPreferences`. -/
theorem matchPreferences_ok {kind : String → Option Bool} {pcr : Obj} {ctx ctx' : Ctx}
    (h : matchPreferences kind pcr ctx = (.ok (), ctx')) :
    ∃ b b', matchLoop kind ctx.clientPreferences (if pcr.isEmpty then ctx.providerInfo else pcr)
        PREFERENCE2PROVIDER ctx.behaviour = (.ok (), b) ∧
      restLoop kind ctx.clientPreferences b = (.ok (), b') ∧ ctx' = { ctx with behaviour := b' } := by
  unfold matchPreferences at h
  simp only at h
  rcases hm : matchLoop kind ctx.clientPreferences (if pcr.isEmpty then ctx.providerInfo else pcr)
    PREFERENCE2PROVIDER ctx.behaviour with ⟨r, b⟩
  rw [hm] at h
  cases r with
  | error e => simp at h
  | ok u =>
    simp only at h
    rcases hr : restLoop kind ctx.clientPreferences b with ⟨r', b'⟩
    rw [hr] at h
    cases r' with
    | error e => simp at h
    | ok u' =>
      simp only [Prod.mk.injEq, true_and] at h
      exact ⟨b, b', rfl, hr, h.symm⟩

/-- `matchPreferences` changes only the behaviour. -/
theorem matchPreferences_frame (kind : String → Option Bool) (pcr : Obj) (ctx : Ctx) :
    ∃ b, (matchPreferences kind pcr ctx).2 = { ctx with behaviour := b } := by
  unfold matchPreferences
  simp only
  rcases matchLoop kind ctx.clientPreferences (if pcr.isEmpty then ctx.providerInfo else pcr)
    PREFERENCE2PROVIDER ctx.behaviour with ⟨r, b⟩
  cases r with
  | error e => exact ⟨b, rfl⟩
  | ok u =>
    simp only
    rcases restLoop kind ctx.clientPreferences b with ⟨r', b'⟩
    cases r' <;> exact ⟨b', rfl⟩

theorem p2p_nodup : (PREFERENCE2PROVIDER.map Prod.fst).Nodup := by decide +kernel

end Verif.Discovery
