import Verif.Model.Distributed
import Verif.Lemmas.StateInterface
/-!
# C66: distributed claims
-/

namespace Verif.Props
open Verif Verif.Distributed

/-! ## Specification -/

/-- A userinfo assigns the claim `k` to the source `src`. -/
def AssignedTo (info : Obj) (k src : String) : Prop :=
  ∃ names, Dict.get? info "_claim_names" = some (.obj names) ∧ (k, .str src) ∈ names

/-- `src` is a source of a userinfo with the endpoint `url`. -/
def SourceAt (info : Obj) (src : String) (spec : Obj) (url : String) : Prop :=
  ∃ srcs, Dict.get? info "_claim_sources" = some (.obj srcs) ∧ (src, .obj spec) ∈ srcs ∧
    Dict.get? spec "endpoint" = some (.str url)

/-- A fetch at `url` brought the claims `o`. -/
def FetchedFrom (x : Ext) (f : Fetch) (o : Obj) : Prop :=
  ∃ r, x.http f = .ok r ∧ r.status = 200 ∧ x.loads r.text = .ok o

/-- The headers for a source: its own token, or the one of the call back for its endpoint, or none. -/
def OwnHeaders (x : Ext) (spec : Obj) (f : Fetch) : Prop :=
  (∃ t, Dict.get? spec "access_token" = some t ∧ f.headers = [("Authorization", ClientAuth.bearer t)]) ∨
  (Dict.get? spec "access_token" = none ∧ ∃ cb, x.callback = some cb ∧
    f.headers = [("Authorization", ClientAuth.bearer (cb f.url))]) ∨
  (Dict.get? spec "access_token" = none ∧ x.callback = none ∧ f.headers = [])

/-! ## Proofs -/

/-- What happened to the claims between two states, with `names` the assignment of claims. -/
def Changed (x : Ext) (info0 : Obj) (s s' : St) : Prop :=
  (∀ k, Dict.get? s'.info k = Dict.get? s.info k ∨
    ∃ src spec f o v, AssignedTo info0 k src ∧ SourceAt info0 src spec f.url ∧ OwnHeaders x spec f ∧ f ∈ s'.log ∧
      FetchedFrom x f o ∧ Dict.get? o k = some v ∧ Dict.get? s'.info k = some v) ∧
  (∃ fs, s'.log = s.log ++ fs ∧ ∀ f ∈ fs, ∃ src spec, SourceAt info0 src spec f.url ∧ OwnHeaders x spec f)

theorem Changed.refl (x : Ext) (i : Obj) (s : St) : Changed x i s s :=
  ⟨fun _ => .inl rfl, [], by simp, by simp⟩

theorem Changed.trans {x : Ext} {i : Obj} {a b c : St} (h1 : Changed x i a b) (h2 : Changed x i b c) : Changed x i a c := by
  obtain ⟨h1, fs1, e1, g1⟩ := h1
  obtain ⟨h2, fs2, e2, g2⟩ := h2
  refine ⟨?_, fs1 ++ fs2, by rw [e2, e1, List.append_assoc], ?_⟩
  · intro k
    rcases h2 k with h | h
    · rcases h1 k with h' | ⟨src, spec, f, o, v, p1, p2, p3, p4, p5, p6, p7⟩
      · exact .inl (h.trans h')
      · exact .inr ⟨src, spec, f, o, v, p1, p2, p3, by rw [e2]; exact List.mem_append_left _ p4, p5, p6, h.trans p7⟩
    · exact .inr h
  · intro f hf
    rcases List.mem_append.1 hf with hf | hf
    · exact g1 f hf
    · exact g2 f hf

theorem copyClaims_run (o : Obj) (ks : List String) (s : St) :
    (copyClaims o ks s).2.log = s.log ∧ (∀ k, Dict.get? (copyClaims o ks s).2.info k = Dict.get? s.info k ∨
      (k ∈ ks ∧ ∃ v, Dict.get? o k = some v ∧ Dict.get? (copyClaims o ks s).2.info k = some v)) := by
  induction ks generalizing s with
  | nil => exact ⟨rfl, fun _ => .inl rfl⟩
  | cons a ks ih =>
    unfold copyClaims
    cases hg : Dict.getItem o a with
    | error e => exact ⟨rfl, fun _ => .inl rfl⟩
    | ok v =>
      have hv := Dict.getItem_eq_ok.1 hg
      show ((copyClaims o ks { s with info := Dict.set s.info a v }).2.log = s.log) ∧ _
      obtain ⟨i1, i2⟩ := ih { s with info := Dict.set s.info a v }
      refine ⟨i1, ?_⟩
      intro k
      show Dict.get? (copyClaims o ks { s with info := Dict.set s.info a v }).2.info k = _ ∨
        (_ ∧ ∃ v', _ ∧ Dict.get? (copyClaims o ks { s with info := Dict.set s.info a v }).2.info k = _)
      rcases i2 k with h | ⟨h1, h2⟩
      · by_cases hk : k = a
        · subst hk
          right
          refine ⟨List.mem_cons_self .., v, hv, ?_⟩
          rw [h, Dict.get?_set_self]
        · left
          rw [h, Dict.get?_set_ne _ _ (Ne.symm hk)]
      · exact .inr ⟨List.mem_cons_of_mem _ h1, h2⟩

theorem headersFor_ok {x : Ext} {spec : Obj} {url : String} {h : Dict String} (hh : headersFor x spec url = .ok h) :
    OwnHeaders x spec { url := url, headers := h } := by
  have hb : ∀ t hd, tokenHeaders x t = .ok hd → hd = [("Authorization", ClientAuth.bearer t)] := by
    intro t hd ht
    unfold tokenHeaders ClientAuth.bearerHeader ClientAuth.findToken at ht
    simp only [Dict.get?_nil, Dict.get?_cons, if_true] at ht
    split at ht <;> cases ht
    rfl
  unfold headersFor at hh
  split at hh
  · next t ht => exact .inl ⟨t, ht, hb _ _ hh⟩
  · next ht =>
    split at hh
    · next cb hcb => exact .inr (.inl ⟨ht, cb, hcb, hb _ _ hh⟩)
    · next hcb => injection hh with hh; subst hh; exact .inr (.inr ⟨ht, hcb, rfl⟩)

/-- `_claim_names` assigns itself to no source. -/
def NamesFixed (info : Obj) : Prop := ∀ src, ¬ AssignedTo info "_claim_names" src

theorem fetchSource_changed {x : Ext} {i : Obj} {src url : String} {spec : Obj} (hs : SourceAt i src spec url) (s : St)
    (hn : Dict.get? s.info "_claim_names" = Dict.get? i "_claim_names") : Changed x i s (fetchSource x src spec url s).2 := by
  unfold fetchSource
  cases hh : headersFor x spec url with
  | error e => exact Changed.refl _ _ _
  | ok h =>
    have how := headersFor_ok hh
    have hsent : ∀ s', s'.info = s.info → s'.log = s.log ++ [{ url := url, headers := h }] → Changed x i s s' := by
      intro s' h1 h2
      refine ⟨fun k => .inl (by rw [h1]), _, h2, ?_⟩
      intro f hf
      rw [List.mem_singleton] at hf
      subst hf
      exact ⟨src, spec, hs, how⟩
    show Changed x i s (Py.bnd (send x { url := url, headers := h }) _ s).2
    unfold Py.bnd send
    cases hr : x.http { url := url, headers := h } with
    | error e => exact hsent _ rfl rfl
    | ok r =>
      show Changed x i s (Py.bnd (Py.lift (answer x r)) _ _).2
      unfold Py.bnd Py.lift
      cases ha : answer x r with
      | error e => exact hsent _ rfl rfl
      | ok o =>
        have hf : FetchedFrom x { url := url, headers := h } o := by
          unfold answer at ha
          split at ha
          · next hst => exact ⟨r, hr, hst, ha⟩
          · cases ha
        show Changed x i s (Py.bnd _ _ _).2
        unfold Py.bnd
        simp only
        cases he : expected s.info src with
        | error e => exact hsent _ rfl rfl
        | ok ks =>
          simp only
          obtain ⟨c1, c2⟩ := copyClaims_run o ks { s with log := s.log ++ [{ url := url, headers := h }] }
          refine ⟨?_, [{ url := url, headers := h }], c1, ?_⟩
          · intro k
            rcases c2 k with h1 | ⟨h1, v, h2, h3⟩
            · exact .inl h1
            · right
              refine ⟨src, spec, { url := url, headers := h }, o, v, ?_, hs, how, by rw [c1]; simp, hf, h2, h3⟩
              unfold expected at he
              rw [hn] at he
              split at he
              · cases he
              · next names hnm =>
                injection he with he
                subst he
                obtain ⟨p, hp1, hp2⟩ := List.mem_map.1 h1
                obtain ⟨hp3, hp4⟩ := List.mem_filter.1 hp1
                have hp4' := of_decide_eq_true hp4
                refine ⟨names, hnm, ?_⟩
                rw [← hp2, ← hp4']
                exact hp3
              · cases he
          · intro f hf
            rw [List.mem_singleton] at hf
            subst hf
            exact ⟨src, spec, hs, how⟩

theorem names_kept {x : Ext} {i : Obj} (hfix : NamesFixed i) {s s' : St} (h : Changed x i s s')
    (hn : Dict.get? s.info "_claim_names" = Dict.get? i "_claim_names") :
    Dict.get? s'.info "_claim_names" = Dict.get? i "_claim_names" := by
  rcases h.1 "_claim_names" with h | ⟨src, _, _, _, _, h, _⟩
  · exact h.trans hn
  · exact absurd h (hfix src)

theorem sources_changed {x : Ext} {i : Obj} (hfix : NamesFixed i) (l srcs : List (String × Val))
    (hsrc : Dict.get? i "_claim_sources" = some (.obj srcs)) (hl : ∀ p ∈ l, p ∈ srcs) (s : St)
    (hn : Dict.get? s.info "_claim_names" = Dict.get? i "_claim_names") : Changed x i s (sources x l s).2 := by
  induction l generalizing s with
  | nil => exact Changed.refl _ _ _
  | cons p l ih =>
    obtain ⟨src, v⟩ := p
    have h1 : Changed x i s (source x src v s).2 := by
      unfold source
      split
      · next spec =>
        cases he : Dict.get? spec "endpoint" with
        | none => exact Changed.refl _ _ _
        | some e =>
          cases hu : asStr e with
          | error _ =>
            show Changed x i s (Py.bnd (Py.lift (asStr e)) _ s).2
            rw [hu]
            exact Changed.refl _ _ _
          | ok url =>
            have : e = .str url := by
              cases e <;> simp [asStr] at hu
              rw [hu]
            subst this
            exact fetchSource_changed ⟨srcs, hsrc, hl _ (List.mem_cons_self ..), he⟩ s hn
      · exact Changed.refl _ _ _
    unfold sources
    show Changed x i s (Py.bnd (source x src v) _ s).2
    unfold Py.bnd
    split
    · next a s' he =>
      rw [he] at h1
      exact h1.trans (ih (fun p hp => hl p (List.mem_cons_of_mem _ hp)) s' (names_kept hfix h1 hn))
    · next e s' he =>
      rw [he] at h1
      exact h1

/-- **C66** (the part that holds).  Whatever the answers are and whether or not the call ends with an exception: a claim that
`fetch_distributed_claims` changed was assigned by `_claim_names` to a source with an endpoint and has the value in an answer with
status 200 from that endpoint; all others are as before.  Every request goes to the endpoint of a source and carries
only the token of that source (or of the call back for the endpoint). -/
theorem C66_only_assigned_claims_partial (x : Ext) (info : Obj) (hfix : NamesFixed info) :
    let s' := (fetch x { info := info }).2
    (∀ k, Dict.get? s'.info k = Dict.get? info k ∨
      ∃ src spec f o v, AssignedTo info k src ∧ SourceAt info src spec f.url ∧ OwnHeaders x spec f ∧ f ∈ s'.log ∧
        FetchedFrom x f o ∧ Dict.get? o k = some v ∧ Dict.get? s'.info k = some v) ∧
    (∀ f ∈ s'.log, ∃ src spec, SourceAt info src spec f.url ∧ OwnHeaders x spec f) := by
  have h : Changed x info { info := info } (fetch x { info := info }).2 := by
    unfold fetch
    simp only
    split
    · exact Changed.refl _ _ _
    · next o ho => exact sources_changed hfix o o ho (fun _ h => h) _ rfl
    · exact Changed.refl _ _ _
  obtain ⟨h1, fs, h2, h3⟩ := h
  refine ⟨h1, ?_⟩
  intro f hf
  rw [h2] at hf
  exact h3 f (by simpa using hf)

/-- **C66** (sources without endpoint are left alone).  Without a source that has an endpoint nothing is sent and no
claim changes. -/
theorem C66_no_endpoint_no_change (x : Ext) (info : Obj) (hfix : NamesFixed info)
    (hno : ∀ src spec url, ¬ SourceAt info src spec url) :
    (fetch x { info := info }).2.log = [] ∧ ∀ k, Dict.get? (fetch x { info := info }).2.info k = Dict.get? info k := by
  obtain ⟨h1, h2⟩ := C66_only_assigned_claims_partial x info hfix
  constructor
  · by_cases hl : (fetch x { info := info }).2.log = []
    · exact hl
    · obtain ⟨f, hf⟩ := List.exists_mem_of_ne_nil _ hl
      obtain ⟨src, spec, h3, _⟩ := h2 f hf
      exact absurd h3 (hno _ _ _)
  · intro k
    rcases h1 k with h | ⟨src, spec, f, o, v, _, h, _⟩
    · exact h
    · exact absurd h (hno _ _ _)

/-! ## Examples -/

/-- A userinfo with two distributed sources. -/
def distributed (names : Obj) : Obj :=
  [("sub", .str "alice"), ("email", .str "a@x"), ("_claim_names", .obj names),
   ("_claim_sources", .obj [("a", .obj [("endpoint", .str "https://a.example/"), ("access_token", .str "TA")]),
     ("b", .obj [("endpoint", .str "https://b.example/"), ("access_token", .str "TB")])])]

/-- The sources: `a` answers with more than was asked for. -/
def distWorld : Ext where
  env := { ctx := {}, msg := default, serviceName := "userinfo" }
  http := fun f => .ok { status := 200, headers := [], text := f.url }
  loads := fun t => .ok (if t = "https://a.example/" then
      [("age", .int 20), ("email", .str "evil"), ("_claim_names", .obj [("sub", .str "b"), ("age", .str "b")])]
    else [("shoe", .int 40), ("sub", .str "mallory"), ("age", .int 99)])

/-- Non-vacuity of C66: both sources are asked, each with its token; only what was assigned is taken. -/
example :
    NamesFixed (distributed [("age", .str "a"), ("shoe", .str "b")]) ∧
    (fetch distWorld { info := distributed [("age", .str "a"), ("shoe", .str "b")] }).1 = .ok () ∧
    (fetch distWorld { info := distributed [("age", .str "a"), ("shoe", .str "b")] }).2.log =
      [{ url := "https://a.example/", headers := [("Authorization", "Bearer TA")] },
       { url := "https://b.example/", headers := [("Authorization", "Bearer TB")] }] ∧
    (["sub", "email", "age", "shoe"].map (fun k =>
      Dict.get? (fetch distWorld { info := distributed [("age", .str "a"), ("shoe", .str "b")] }).2.info k)) =
      [some (.str "alice"), some (.str "a@x"), some (.int 20), some (.int 40)] := by
  refine ⟨?_, by rfl, by rfl, by rfl⟩
  rintro src ⟨names, h1, h2⟩
  have h3 : Dict.get? (distributed [("age", .str "a"), ("shoe", .str "b")]) "_claim_names" =
    some (.obj [("age", .str "a"), ("shoe", .str "b")]) := by rfl
  rw [h3] at h1
  injection h1 with h1
  injection h1 with h1
  subst h1
  simp at h2

/-- **C66** is violated when `_claim_names` is itself assigned to a source: that source then assigns the other claims, here
`sub` to the source `b`, which it was not assigned to. -/
theorem C66_names_assigned_violated :
    ¬ AssignedTo (distributed [("_claim_names", .str "a")]) "sub" "b" ∧
    Dict.get? (fetch distWorld { info := distributed [("_claim_names", .str "a")] }).2.info "sub" = some (.str "mallory") := by
  refine ⟨?_, by rfl⟩
  rintro ⟨names, h1, h2⟩
  have h3 : Dict.get? (distributed [("_claim_names", .str "a")]) "_claim_names" = some (.obj [("_claim_names", .str "a")]) := by rfl
  rw [h3] at h1
  injection h1 with h1
  injection h1 with h1
  subst h1
  simp at h2

end Verif.Props
