import Verif.Props.Userinfo
import Verif.Lemmas.Progress
import Verif.Lemmas.Finalize
/-!
# C101: claims of other sources

User info may say that some of its claims come from elsewhere (OpenID Connect Core 5.6.2): `_claim_names` gives the name of the
source of each such claim, `_claim_sources` describes the sources - with a signed JWT the claims are aggregated.
-/

namespace Spec.Aggregated
open Verif

/-- The source user info names for a claim, if it describes it by a JWT. -/
structure Aggregates (info : Obj) (claim : String) (jwt : Val) : Prop where
  named : ∃ names source, Dict.get? info "_claim_names" = some (.obj names) ∧ Dict.get? names claim = some (.str source) ∧
    ∃ sources spec, Dict.get? info "_claim_sources" = some (.obj sources) ∧ Dict.get? sources source = some (.obj spec) ∧
      Dict.get? spec "JWT" = some jwt

/-- A source vouches for the value of a claim: it is the one named for it, and its JWT, read as `read` does, gives the claim
that value. -/
def Vouched (read : Val → Except Exc Obj) (info : Obj) (claim : String) (v : Val) : Prop :=
  ∃ jwt claims, Aggregates info claim jwt ∧ read jwt = .ok claims ∧ Dict.get? claims claim = some v

/-- `d` is what a dictionary of user info can be: no key twice. -/
def Unique (info : Obj) (k : String) : Prop := ∀ o, Dict.get? info k = some (.obj o) → (Dict.keys o).Nodup

/-- User info does not say that the list of sources is itself to be found at a source. -/
def Plain (info : Obj) : Prop := ∀ names, Dict.get? info "_claim_names" = some (.obj names) → Dict.get? names "_claim_names" = none

/-- A source that is of use: its JWT cannot be read as its keys are not known, or it can and has every claim it is named for. -/
def Usable (read : Val → Except Exc Obj) (info : Obj) (source : String) (jwt : Val) : Prop :=
  read jwt = .error (.external "MissingSigningKey") ∨
  ∃ claims names, read jwt = .ok claims ∧ Dict.get? info "_claim_names" = some (.obj names) ∧
    ∀ claim, Dict.get? names claim = some (.str source) → Dict.has claims claim = true

end Spec.Aggregated

namespace Verif.Props
open Verif Handler Service Spec.Aggregated

/-- The dictionary of claim names. -/
def namesOf (resp : Obj) : Obj :=
  match Dict.get? resp "_claim_names" with
  | some (.obj n) => n
  | _ => []

/-- What the sources in the list say of a claim. -/
def saidOf (read : Val → Except Exc Obj) (names srcs : Obj) (k : String) : Option Val :=
  match Dict.get? names k with
  | some (.str src) => match Dict.get? srcs src with
    | some (.obj o) => match Dict.get? o "JWT" with
      | some jwt => match read jwt with
        | .ok claims => Dict.get? claims k
        | .error _ => none
      | none => none
    | _ => none
  | _ => none

theorem saidOf_iff (read : Val → Except Exc Obj) (info sources : Obj) (hs : Dict.get? info "_claim_sources" = some (.obj sources))
    (k : String) (v : Val) : saidOf read (namesOf info) sources k = some v ↔ Vouched read info k v := by
  unfold saidOf
  constructor
  · intro h
    split at h
    · next src h1 =>
      split at h
      · next o h2 =>
        split at h
        · next jwt h3 =>
          split at h
          · next claims h4 =>
            unfold namesOf at h1
            split at h1
            · next n hn => exact ⟨jwt, claims, ⟨n, src, hn, h1, sources, o, hs, h2, h3⟩, h4, h⟩
            · cases h1
          · cases h
        · cases h
      · cases h
    · cases h
  · rintro ⟨jwt, claims, ⟨n, src, hn, h1, sources', o, hs', h2, h3⟩, h4, h⟩
    rw [hs] at hs'; injection hs' with hs'; injection hs' with hs'; subst hs'
    have : namesOf info = n := by unfold namesOf; rw [hn]
    simp only [this, h1, h2, h3, h4, h]

theorem takeClaims_ok {csrc : String} {claims : Obj} (names : Obj) (hn : (Dict.keys names).Nodup) :
    ∀ {resp r : Obj}, takeClaims csrc claims names resp = .ok r →
      ∀ k, (Dict.get? names k = some (.str csrc) → Dict.has claims k = true ∧ Dict.get? r k = Dict.get? claims k) ∧
        (Dict.get? names k ≠ some (.str csrc) → Dict.get? r k = Dict.get? resp k) := by
  induction names with
  | nil => intro resp r h k; injection h with h; subst h; simp [Dict.get?]
  | cons p names ih =>
    obtain ⟨n, src⟩ := p
    intro resp r h k
    have hn' : n ∉ Dict.keys names ∧ (Dict.keys names).Nodup := by
      simpa only [Dict.keys, List.map_cons, List.nodup_cons] using hn
    have hnone := (Dict.get?_eq_none_iff names n).2 hn'.1
    unfold takeClaims at h
    rw [Dict.get?_cons]
    split at h
    · next hsrc =>
      split at h
      · cases h
      · next v hv =>
        have hv' := Dict.getItem_eq_ok.1 hv
        obtain ⟨i1, i2⟩ := ih hn'.2 h k
        by_cases hk : n = k
        · subst hk
          simp only [if_true, hsrc]
          refine ⟨fun _ => ⟨by rw [Dict.has_eq, hv']; rfl, ?_⟩, fun h => absurd rfl h⟩
          rw [i2 (by rw [hnone]; simp), Dict.get?_set_self, hv']
        · rw [if_neg hk]
          refine ⟨i1, fun h => ?_⟩
          rw [i2 h, Dict.get?_set_ne _ _ hk]
    · next hsrc =>
      obtain ⟨i1, i2⟩ := ih hn'.2 h k
      by_cases hk : n = k
      · subst hk
        simp only [if_true]
        refine ⟨fun h => absurd (Option.some.inj h) hsrc, fun _ => i2 (by rw [hnone]; simp)⟩
      · rw [if_neg hk]
        exact ⟨i1, i2⟩

theorem takeClaims_progress {csrc : String} {claims : Obj} (names : Obj) (hn : (Dict.keys names).Nodup)
    (h : ∀ k, Dict.get? names k = some (.str csrc) → Dict.has claims k = true) :
    ∀ resp, ∃ r, takeClaims csrc claims names resp = .ok r := by
  induction names with
  | nil => intro resp; exact ⟨resp, rfl⟩
  | cons p names ih =>
    obtain ⟨n, src⟩ := p
    intro resp
    have hn' : n ∉ Dict.keys names ∧ (Dict.keys names).Nodup := by
      simpa only [Dict.keys, List.map_cons, List.nodup_cons] using hn
    have ih' := ih hn'.2 (fun k hk => h k (by
      rw [Dict.get?_cons, if_neg]
      · exact hk
      · rintro rfl
        rw [(Dict.get?_eq_none_iff names n).2 hn'.1] at hk
        cases hk))
    unfold takeClaims
    split
    · next hsrc =>
      have := h n (by rw [Dict.get?_cons, if_pos rfl, hsrc])
      rw [Dict.has_eq] at this
      obtain ⟨v, hv⟩ := Option.isSome_iff_exists.1 this
      rw [Dict.getItem_eq_ok.2 hv]
      exact ih' _
    · exact ih' _

/-- What one source does, if nothing is raised. -/
theorem claimSource_ok {x : Ext} {c : Client} {state csrc : String} {spec : Val} {resp r : Obj}
    (hn : (Dict.keys (namesOf resp)).Nodup) (h : claimSource x c state csrc spec resp = .ok r) (k : String) :
    Dict.get? r k = (saidOf (x.aggregated c.ctx) (namesOf resp) [(csrc, spec)] k).or (Dict.get? resp k) ∧
    ∀ o jwt, spec = .obj o → Dict.get? o "JWT" = some jwt → Usable (x.aggregated c.ctx) resp csrc jwt := by
  have other : (∀ o jwt, spec = .obj o → Dict.get? o "JWT" = some jwt → False) →
      saidOf (x.aggregated c.ctx) (namesOf resp) [(csrc, spec)] k = none := by
    intro hno
    unfold saidOf
    split
    · next src _ =>
      split
      · next o ho =>
        split
        · next jwt hj =>
          exfalso
          rw [Dict.get?_cons] at ho
          split at ho
          · injection ho with ho; exact hno o jwt ho hj
          · cases ho
        · rfl
      · rfl
    · rfl
  unfold claimSource at h
  split at h
  · next o =>
    split at h
    · next jwt hj =>
      unfold aggregate at h
      split at h
      · next hm =>
        injection h with h; subst h
        refine ⟨?_, ?_⟩
        · have : saidOf (x.aggregated c.ctx) (namesOf resp) [(csrc, .obj o)] k = none := by
            unfold saidOf
            split
            · next src _ =>
              rw [Dict.get?_cons]
              by_cases hc : csrc = src
              · simp only [hc, if_true, hj, hm]
              · simp [hc, Dict.get?]
            · rfl
          rw [this]; simp
        · intro o' jwt' ho hj'
          injection ho with ho; subst ho
          rw [hj] at hj'; injection hj' with hj'; subst hj'
          exact Or.inl hm
      · cases h
      · next claims hc =>
        split at h
        · cases h
        · next v hv =>
          have hv' := Dict.getItem_eq_ok.1 hv
          split at h
          · cases h
          · next names hnames =>
            have hobj : v = .obj names := by
              unfold itemsOf at hnames
              split at hnames
              · injection hnames with e; rw [e]
              · cases hnames
            subst hobj
            have hno : namesOf resp = names := by unfold namesOf; rw [hv']
            rw [hno] at hn ⊢
            have ht := takeClaims_ok names hn h
            refine ⟨?_, ?_⟩
            · unfold saidOf
              by_cases hk : Dict.get? names k = some (.str csrc)
              · obtain ⟨h1, h2⟩ := (ht k).1 hk
                rw [Dict.has_eq] at h1
                obtain ⟨w, hw⟩ := Option.isSome_iff_exists.1 h1
                simp only [hk, Dict.get?_cons, if_true, hj, hc, h2, hw]
                rfl
              · rw [(ht k).2 hk]
                split
                · next src hsrc =>
                  have : csrc ≠ src := by rintro rfl; exact hk hsrc
                  simp [Dict.get?_cons, this, Dict.get?]
                · simp
            · intro o' jwt' ho hj'
              injection ho with ho; subst ho
              rw [hj] at hj'; injection hj' with hj'; subst hj'
              exact Or.inr ⟨claims, names, hc, hv', fun claim hcl => ((ht claim).1 hcl).1⟩
    · next hj =>
      have hr : r = resp := by
        split at h
        · cases ha : sourceHeader x c state with
          | error e => rw [ha] at h; cases h
          | ok a => rw [ha] at h; injection h with h; exact h.symm
        · injection h with h; exact h.symm
      subst hr
      have hno : ∀ o' jwt, Val.obj o = .obj o' → Dict.get? o' "JWT" = some jwt → False := by
        intro o' jwt ho hj'
        injection ho with ho; subst ho
        rw [hj] at hj'; cases hj'
      exact ⟨by rw [other hno]; simp, fun o' jwt ho hj' => absurd (hno o' jwt ho hj') id⟩
  · next s =>
    have hr : r = resp := by
      split at h
      · cases h
      · split at h
        · cases ha : sourceHeader x c state with
          | error e => rw [ha] at h; cases h
          | ok a => rw [ha] at h; cases h
        · injection h with h; exact h.symm
    subst hr
    exact ⟨by rw [other (fun o _ ho => by cases ho)]; simp, fun o _ ho => by cases ho⟩
  · next l =>
    have hr : r = resp := by
      split at h
      · cases h
      · split at h
        · cases ha : sourceHeader x c state with
          | error e => rw [ha] at h; cases h
          | ok a => rw [ha] at h; cases h
        · injection h with h; exact h.symm
    subst hr
    exact ⟨by rw [other (fun o _ ho => by cases ho)]; simp, fun o _ ho => by cases ho⟩
  · cases h

theorem saidOf_cons {read : Val → Except Exc Obj} {names : Obj} {csrc : String} {spec : Val} {srcs : Obj}
    (hn : csrc ∉ Dict.keys srcs) (k : String) :
    saidOf read names ((csrc, spec) :: srcs) k = (saidOf read names srcs k).or (saidOf read names [(csrc, spec)] k) := by
  have hnone := (Dict.get?_eq_none_iff srcs csrc).2 hn
  unfold saidOf
  cases Dict.get? names k with
  | none => rfl
  | some v =>
    cases v with
    | str src =>
      simp only [Dict.get?_cons]
      by_cases hc : csrc = src
      · subst hc
        simp only [if_true, hnone]
        rfl
      · simp only [if_neg hc, Dict.get?]
        cases h : srcs.find? (fun p => p.1 == src) <;> simp
    | _ => rfl

theorem namesOf_eq {resp r : Obj} (h : Dict.get? r "_claim_names" = Dict.get? resp "_claim_names") : namesOf r = namesOf resp := by
  unfold namesOf; rw [h]

theorem saidOf_unnamed {read : Val → Except Exc Obj} {names srcs : Obj} {k : String} (h : Dict.get? names k = none) :
    saidOf read names srcs k = none := by
  unfold saidOf; rw [h]

theorem usable_eq {read : Val → Except Exc Obj} {resp r : Obj} (h : Dict.get? r "_claim_names" = Dict.get? resp "_claim_names")
    {src : String} {jwt : Val} (hu : Usable read r src jwt) : Usable read resp src jwt := by
  unfold Usable at *
  rw [h] at hu
  exact hu

theorem claimSources_ok {x : Ext} {c : Client} {state : String} (srcs : Obj) (hs : (Dict.keys srcs).Nodup) :
    ∀ {resp r : Obj}, (Dict.keys (namesOf resp)).Nodup → Dict.get? (namesOf resp) "_claim_names" = none →
      claimSources x c state srcs resp = .ok r →
      (∀ k, Dict.get? r k = (saidOf (x.aggregated c.ctx) (namesOf resp) srcs k).or (Dict.get? resp k)) ∧
      ∀ src o jwt, Dict.get? srcs src = some (.obj o) → Dict.get? o "JWT" = some jwt → Usable (x.aggregated c.ctx) resp src jwt := by
  induction srcs with
  | nil =>
    intro resp r _ _ h
    injection h with h; subst h
    refine ⟨fun k => ?_, fun src o jwt h => by cases h⟩
    unfold saidOf
    split
    · simp [Dict.get?]
    · simp
  | cons p srcs ih =>
    obtain ⟨csrc, spec⟩ := p
    intro resp r hn hp h
    have hs' : csrc ∉ Dict.keys srcs ∧ (Dict.keys srcs).Nodup := by
      simpa only [Dict.keys, List.map_cons, List.nodup_cons] using hs
    unfold claimSources at h
    cases h1 : claimSource x c state csrc spec resp with
    | error e => rw [h1] at h; cases h
    | ok r1 =>
      rw [h1] at h
      simp only at h
      have hc := fun k => (claimSource_ok hn h1 k).1
      have hnm : Dict.get? r1 "_claim_names" = Dict.get? resp "_claim_names" := by
        rw [hc, saidOf_unnamed hp]; simp
      have he := namesOf_eq hnm
      obtain ⟨i1, i2⟩ := ih hs'.2 (by rw [he]; exact hn) (by rw [he]; exact hp) h
      refine ⟨fun k => ?_, ?_⟩
      · rw [i1, hc, he, saidOf_cons hs'.1, Option.or_assoc]
      · intro src o jwt ho hj
        rw [Dict.get?_cons] at ho
        split at ho
        · next e =>
          subst e
          injection ho with ho
          exact (claimSource_ok hn h1 "").2 o jwt ho hj
        · exact usable_eq hnm (i2 src o jwt ho hj)

theorem unique_names {info : Obj} (h : Unique info "_claim_names") : (Dict.keys (namesOf info)).Nodup := by
  unfold namesOf
  split
  · next n hn => exact h n hn
  · simp [Dict.keys]

theorem plain_names {info : Obj} (h : Plain info) : Dict.get? (namesOf info) "_claim_names" = none := by
  unfold namesOf
  split
  · next n hn => exact h n hn
  · rfl

theorem allSources_ok {x : Ext} {c : Client} {state : String} {v r : Obj} (hu : Unique v "_claim_names")
    (hs : Unique v "_claim_sources") (hp : Plain v) (h : allSources x c v state = .ok r) :
    (∀ claim w, Vouched (x.aggregated c.ctx) v claim w → Dict.get? r claim = some w) ∧
    (∀ claim, (∀ w, ¬ Vouched (x.aggregated c.ctx) v claim w) → Dict.get? r claim = Dict.get? v claim) ∧
    ∀ sources src spec jwt, Dict.get? v "_claim_sources" = some (.obj sources) → Dict.get? sources src = some (.obj spec) →
      Dict.get? spec "JWT" = some jwt → Usable (x.aggregated c.ctx) v src jwt := by
  unfold allSources at h
  split at h
  · next hnone =>
    injection h with h; subst h
    refine ⟨?_, fun _ _ => rfl, fun _ _ _ _ h => by rw [hnone] at h; cases h⟩
    rintro claim w ⟨jwt, claims, ⟨_, _, _, _, _, _, h, _⟩, _⟩
    rw [hnone] at h; cases h
  · next s hsome =>
    split at h
    · cases h
    · next srcs hi =>
      have hobj : s = .obj srcs := by
        unfold itemsOf at hi
        split at hi
        · injection hi with e; rw [e]
        · cases hi
      subst hobj
      obtain ⟨h1, h2⟩ := claimSources_ok srcs (hs srcs hsome) (unique_names hu) (plain_names hp) h
      refine ⟨fun claim w hw => ?_, fun claim hno => ?_, fun sources src spec jwt hso hsp hj => ?_⟩
      · rw [h1, (saidOf_iff _ v srcs hsome claim w).2 hw]; rfl
      · rw [h1]
        cases hsd : saidOf (x.aggregated c.ctx) (namesOf v) srcs claim with
        | none => simp
        | some w => exact absurd ((saidOf_iff _ v srcs hsome claim w).1 hsd) (hno w)
      · rw [hsome] at hso; injection hso with hso; injection hso with hso; subst hso
        exact h2 src spec jwt hsp hj

/-- **C101** (what is delivered).  Of accepted user info each claim that an aggregated source vouches for has the value
the source gives it, every other claim the one the provider gave; and what is delivered is what is stored for the session. -/
theorem C101_claims (x : Ext) (info : Info) (sformat state : String) (c c' : Client) (r : Obj)
    (h : parseResponse x .userinfo info sformat state c = (.ok (.msg r), c')) (hne : Dict.has r "error" = false) :
    ∃ parsed v, parseInfo x c.ctx .userinfo info (formatOf c .userinfo sformat) = .ok parsed ∧
      x.verify c.ctx .userinfo parsed (gatherVerify c.ctx .userinfo) = .ok v ∧
      (Unique v "_claim_names" → Unique v "_claim_sources" → Plain v →
        (∀ claim w, Vouched (x.aggregated c.ctx) v claim w → Dict.get? r claim = some w) ∧
        (∀ claim, (∀ w, ¬ Vouched (x.aggregated c.ctx) v claim w) → Dict.get? r claim = Dict.get? v claim)) ∧
      StateInterface.getItem c'.db "user_info" state = .ok (Msg.ofDict r) := by
  obtain ⟨parsed, v, args, hp, hv, ha, hsame, hall, hst⟩ := userinfo_accepted h hne
  exact ⟨parsed, v, hp, hv, fun hu hs hpl => ⟨(allSources_ok hu hs hpl hall).1, (allSources_ok hu hs hpl hall).2.1⟩, hst⟩

/-- **C101** (what is refused).  User info with an aggregated source whose JWT cannot be read - for another reason than that
the keys are not known - or which lacks a claim it is named for is not accepted. -/
theorem C101_unusable_refused (x : Ext) (info : Info) (sformat state : String) (c c' : Client) (parsed v r : Obj)
    (hp : parseInfo x c.ctx .userinfo info (formatOf c .userinfo sformat) = .ok parsed)
    (hv : x.verify c.ctx .userinfo parsed (gatherVerify c.ctx .userinfo) = .ok v)
    (hu : Unique v "_claim_names") (hs : Unique v "_claim_sources") (hpl : Plain v)
    (sources spec : Obj) (src : String) (jwt : Val) (hso : Dict.get? v "_claim_sources" = some (.obj sources))
    (hsp : Dict.get? sources src = some (.obj spec)) (hj : Dict.get? spec "JWT" = some jwt)
    (hbad : ¬ Usable (x.aggregated c.ctx) v src jwt) (hne : Dict.has r "error" = false) :
    parseResponse x .userinfo info sformat state c ≠ (.ok (.msg r), c') := by
  intro h
  obtain ⟨parsed', v', args, hp', hv', ha, hsame, hall, hst⟩ := userinfo_accepted h hne
  rw [hp] at hp'; injection hp' with hp'; subst hp'
  rw [hv] at hv'; injection hv' with hv'; subst hv'
  exact hbad ((allSources_ok hu hs hpl hall).2.2 sources src spec jwt hso hsp hj)

theorem claimSource_progress {x : Ext} {c : Client} {state csrc : String} {o resp : Obj} {jwt : Val}
    (hn : (Dict.keys (namesOf resp)).Nodup) (hj : Dict.get? o "JWT" = some jwt) (hu : Usable (x.aggregated c.ctx) resp csrc jwt) :
    ∃ r, claimSource x c state csrc (.obj o) resp = .ok r := by
  unfold claimSource
  simp only [hj]
  unfold aggregate
  rcases hu with h | ⟨claims, names, h1, h2, h3⟩
  · exact ⟨resp, by rw [h]; rfl⟩
  · simp only [h1, Dict.getItem_eq_ok.2 h2, itemsOf]
    have : namesOf resp = names := by unfold namesOf; rw [h2]
    rw [this] at hn
    exact takeClaims_progress names hn h3 resp

theorem claimSources_progress {x : Ext} {c : Client} {state : String} (srcs : Obj) :
    ∀ (resp : Obj), (Dict.keys (namesOf resp)).Nodup → Dict.get? (namesOf resp) "_claim_names" = none →
      (∀ p ∈ srcs, ∃ o jwt, p.2 = .obj o ∧ Dict.get? o "JWT" = some jwt ∧ Usable (x.aggregated c.ctx) resp p.1 jwt) →
      ∃ r, claimSources x c state srcs resp = .ok r := by
  induction srcs with
  | nil => intro resp _ _ _; exact ⟨resp, rfl⟩
  | cons p srcs ih =>
    obtain ⟨csrc, spec⟩ := p
    intro resp hn hp hall
    obtain ⟨o, jwt, ho, hj, hu⟩ := hall _ (List.mem_cons_self ..)
    simp only at ho hu
    subst ho
    obtain ⟨r, hr⟩ := claimSource_progress (state := state) hn hj hu
    have hnm : Dict.get? r "_claim_names" = Dict.get? resp "_claim_names" := by
      rw [(claimSource_ok hn hr _).1, saidOf_unnamed hp]; simp
    have he := namesOf_eq hnm
    obtain ⟨r', hr'⟩ := ih r (by rw [he]; exact hn) (by rw [he]; exact hp) (fun p hm => by
      obtain ⟨o, jwt, h1, h2, h3⟩ := hall p (List.mem_cons_of_mem _ hm)
      exact ⟨o, jwt, h1, h2, usable_eq hnm.symm h3⟩)
    refine ⟨r', ?_⟩
    unfold claimSources
    rw [hr]
    exact hr'

theorem set_ne_nil (d : Obj) (k : String) (v : Val) : Dict.set d k v ≠ [] := by
  intro h
  have := Dict.get?_set_self d k v
  rw [h] at this
  cases this

theorem claimSource_ne {x : Ext} {c : Client} {state csrc : String} {spec : Val} {resp r : Obj}
    (h : claimSource x c state csrc spec resp = .ok r) (hn : resp ≠ []) : r ≠ [] := by
  have take : ∀ (claims names resp r : Obj), takeClaims csrc claims names resp = .ok r → resp ≠ [] → r ≠ [] := by
    intro claims names
    induction names with
    | nil => intro resp r h hn; injection h with h; rw [← h]; exact hn
    | cons p names ih =>
      intro resp r h hn
      unfold takeClaims at h
      split at h
      · split at h
        · cases h
        · exact ih _ _ h (set_ne_nil _ _ _)
      · exact ih _ _ h hn
  unfold claimSource at h
  split at h
  · split at h
    · unfold aggregate at h
      split at h
      · injection h with h; rw [← h]; exact hn
      · cases h
      · split at h
        · cases h
        · split at h
          · cases h
          · exact take _ _ _ _ h hn
    · split at h
      · cases ha : sourceHeader x c state with
        | error e => rw [ha] at h; cases h
        | ok a => rw [ha] at h; injection h with h; rw [← h]; exact hn
      · injection h with h; rw [← h]; exact hn
  · split at h
    · cases h
    · split at h
      · cases ha : sourceHeader x c state with
        | error e => rw [ha] at h; cases h
        | ok a => rw [ha] at h; cases h
      · injection h with h; rw [← h]; exact hn
  · split at h
    · cases h
    · split at h
      · cases ha : sourceHeader x c state with
        | error e => rw [ha] at h; cases h
        | ok a => rw [ha] at h; cases h
      · injection h with h; rw [← h]; exact hn
  · cases h

/-- **C101** (what is accepted).  User info of the subject of the session is accepted if each of its sources is of use. -/
theorem C101_usable_accepted (x : Ext) (info : Info) (sformat state : String) (c : Client) (parsed v sources st idt : Obj) (sub : Val)
    (hf : formatOf c .userinfo sformat ∉ ["jose", "jws", "jwe"])
    (hp : parseInfo x c.ctx .userinfo info (formatOf c .userinfo sformat) = .ok parsed)
    (hne : Dict.has parsed "error" = false)
    (hv : x.verify c.ctx .userinfo parsed (gatherVerify c.ctx .userinfo) = .ok v)
    (hst : StateInterface.getState c.db state = .ok st)
    (hitems : ∀ t ∈ ["auth_response", "token_response", "refresh_token_response"],
      Dict.get? st t = none ∨ ∃ o, Dict.get? st t = some (.obj o))
    (hl : LatestIdToken c.db state idt) (hs : Dict.get? idt "sub" = some sub) (hsv : Dict.get? v "sub" = some sub)
    (hu : Unique v "_claim_names") (hpl : Plain v) (hso : Dict.get? v "_claim_sources" = some (.obj sources))
    (hall : ∀ p ∈ sources, ∃ spec jwt, p.2 = .obj spec ∧ Dict.get? spec "JWT" = some jwt ∧ Usable (x.aggregated c.ctx) v p.1 jwt) :
    ∃ r c', parseResponse x .userinfo info sformat state c = (.ok (.msg r), c') := by
  have hj : isJose (formatOf c .userinfo sformat) = false := by
    simp only [List.mem_cons, List.not_mem_nil, or_false, not_or] at hf
    simp [isJose, hf.1, hf.2.1, hf.2.2]
  obtain ⟨r, hr⟩ := claimSources_progress (x := x) (c := c) (state := state) sources v (unique_names hu) (plain_names hpl) hall
  obtain ⟨args, ha⟩ := StateInterface.multi_progress hst ["id_token"] false RESPONSES [] hitems
  have hid := latest_found hl ha
  have hsub : sameSub args v = .ok () := by
    unfold sameSub
    rw [hid]
    simp only [hs, hsv, if_true]
  have hchk : userinfoChecked x v state c = .ok r := by
    unfold userinfoChecked
    rw [ha]
    simp only [hsub]
    unfold allSources
    rw [hso]
    exact hr
  have hre : r.isEmpty = false := by
    cases r with
    | cons => rfl
    | nil =>
      exfalso
      have key : ∀ (l : Obj) (resp r : Obj), claimSources x c state l resp = .ok r → resp ≠ [] → r ≠ [] := by
        intro l
        induction l with
        | nil => intro resp r h hn; injection h with h; rw [← h]; exact hn
        | cons p l ih =>
          intro resp r h hn
          unfold claimSources at h
          cases h1 : claimSource x c state p.1 p.2 resp with
          | error e => rw [h1] at h; cases h
          | ok r1 => rw [h1] at h; exact ih r1 r h (claimSource_ne h1 hn)
      exact key sources v [] hr (by rintro rfl; cases hsv) rfl
  refine ⟨r, { c with db := Dict.set c.db state (.doc (Dict.set st "user_info" (.obj r))) }, ?_⟩
  rw [parseResponse_plain hj, hp]
  simp only
  unfold verified checkedResponse
  rw [show Msg.isError parsed = false from hne]
  simp only [Bool.false_eq_true, if_false]
  have hpost : postParse x .userinfo v state c =
      (.ok r, { c with db := Dict.set c.db state (.doc (Dict.set st "user_info" (.obj r))) }) := by
    simp only [postParse]
    rw [Py.bind_ok (a := r) (s' := c) (by simp only [ask, hchk]), Py.bind_ok (a := ()) (s' := { c with
      db := Dict.set c.db state (.doc (Dict.set st "user_info" (.obj r))) })]
    · rfl
    · unfold onDB
      rw [StateInterface.storeItem_run hst]
  rw [Py.bind_ok (a := r) (s' := { c with db := Dict.set c.db state (.doc (Dict.set st "user_info" (.obj r))) })
    (by rw [Py.bind_ok (a := v) (s' := c) (by simp only [ask, hv])]; exact hpost)]
  rw [hre]
  rfl

/-! ## Non-vacuity -/

/-- A world with two readable JWTs, one whose keys are not known and otherwise forged ones. -/
def sourced : Ext := { World.ext 0 "" "" "" with
  aggregated := fun _ jwt =>
    if jwt = .str "jwt1" then .ok [("address", .str "Road 1"), ("phone", .str "1"), ("name", .str "Mallory")]
    else if jwt = .str "jwt2" then .ok [("phone", .str "2")]
    else if jwt = .str "jwt3" then .error (.external "MissingSigningKey")
    else .error (.external "BadSignature") }

/-- User info with sources. -/
def sourcedInfo (forth : String) : Obj :=
  [("sub", .str "alice"), ("name", .str "Alice"), ("phone", .str "0"), ("email", .str "a@op"),
   ("_claim_names", .obj [("address", .str "s1"), ("phone", .str "s2"), ("email", .str "s3"), ("birthdate", .str "s4")]),
   ("_claim_sources", .obj [("s1", .obj [("JWT", .str "jwt1")]), ("s2", .obj [("JWT", .str "jwt2")]),
      ("s3", .obj [("JWT", .str "jwt3")]), ("s4", .obj [("JWT", .str forth)])])]

/-- Each claim is taken from the source named for it, that of the source with unknown keys from the provider; a JWT that is
forged is an exception. -/
example : let c : Client := { db := aliceDb }
    (parseResponse sourced .userinfo (.dict (sourcedInfo "jwt3")) "dict" "s" c).1 = .ok (.msg
      [("sub", .str "alice"), ("name", .str "Alice"), ("phone", .str "2"), ("email", .str "a@op"),
       ("_claim_names", .obj [("address", .str "s1"), ("phone", .str "s2"), ("email", .str "s3"), ("birthdate", .str "s4")]),
       ("_claim_sources", .obj [("s1", .obj [("JWT", .str "jwt1")]), ("s2", .obj [("JWT", .str "jwt2")]),
          ("s3", .obj [("JWT", .str "jwt3")]), ("s4", .obj [("JWT", .str "jwt3")])]), ("address", .str "Road 1")]) ∧
    (parseResponse sourced .userinfo (.dict (sourcedInfo "jwt4")) "dict" "s" c).1 = .error (.external "BadSignature") ∧
    (parseResponse sourced .userinfo (.dict (sourcedInfo "jwt2")) "dict" "s" c).1 = .error .keyError :=
  ⟨rfl, rfl, rfl⟩

/-- The hypotheses of the theorems can be met. -/
example : Plain (sourcedInfo "jwt3") ∧ Unique (sourcedInfo "jwt3") "_claim_names" ∧ Unique (sourcedInfo "jwt3") "_claim_sources" ∧
    Vouched (sourced.aggregated {}) (sourcedInfo "jwt3") "phone" (.str "2") ∧
    ¬ Usable (sourced.aggregated {}) (sourcedInfo "jwt4") "s4" (.str "jwt4") := by
  refine ⟨?_, ?_, ?_, ⟨.str "jwt2", _, ⟨_, "s2", rfl, rfl, _, _, rfl, rfl, rfl⟩, rfl, rfl⟩, ?_⟩
  · intro names h; cases h; rfl
  · intro o h; cases h; decide
  · intro o h; cases h; decide
  · rintro (h | ⟨_, _, h, _⟩)
    · have h' : (Except.error (.external "BadSignature") : Except Exc Obj) = .error (.external "MissingSigningKey") := h
      injection h' with h'; injection h' with h'
      revert h'; decide
    · have h' : (Except.error (.external "BadSignature") : Except Exc Obj) = .ok _ := h
      cases h'

end Verif.Props
