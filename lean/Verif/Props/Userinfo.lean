import Verif.Props.Responses
/-!
# C25: user info is accepted for the authenticated subject only
-/

namespace Verif.Props
open Verif Handler Service Spec.Session

/-- `idt` are the claims of the verified ID Token of the latest response of the session that has an ID
Token at all. -/
def LatestIdToken (db : DB) (k : String) (idt : Obj) : Prop :=
  ∃ before item after,
    ["auth_response", "token_response", "refresh_token_response"] = before ++ item :: after ∧
    (∃ r, StateInterface.getItem db item k = .ok r ∧ Dict.get? r "__verified_id_token" = some (.obj idt)) ∧
    ∀ later ∈ after, ∀ r, StateInterface.getItem db later k = .ok r →
      Dict.get? r "__verified_id_token" = none ∧ Dict.get? r "id_token" = none

theorem multiExtend_append (st : Obj) (ps : List String) (orig : Bool) (l l' : List String) :
    ∀ args, StateInterface.multiExtendLoop st ps orig (l ++ l') args =
      match StateInterface.multiExtendLoop st ps orig l args with
      | .ok a => StateInterface.multiExtendLoop st ps orig l' a
      | .error e => .error e := by
  induction l with
  | nil => intro args; rfl
  | cons t l ih =>
    intro args
    simp only [List.cons_append, StateInterface.multiExtendLoop]
    split
    · exact ih _
    · exact ih _
    · rfl

theorem multiExtend_unchanged (db : DB) (k : String) (st : Obj) (hst : StateInterface.getState db k = .ok st)
    (p : String) (items : List String)
    (h : ∀ i ∈ items, ∀ r, StateInterface.getItem db i k = .ok r →
      Dict.get? r (Msg.verifiedName p) = none ∧ Dict.get? r p = none) :
    ∀ args a, StateInterface.multiExtendLoop st [p] false items args = .ok a → a = args := by
  induction items with
  | nil => intro args a h'; injection h' with h'; exact h'.symm
  | cons i items ih =>
    intro args a h'
    have ih' := ih (fun j hj => h j (by simp [hj]))
    unfold StateInterface.multiExtendLoop at h'
    split at h'
    · exact ih' _ _ h'
    · next o hg =>
      have hgo : StateInterface.getItem db i k = .ok (Msg.ofDict o) := by
        simp [StateInterface.getItem, hst, hg, StateInterface.asItem]
      obtain ⟨h1, h2⟩ := h i (by simp) _ hgo
      rw [ih' _ _ h']
      simp [StateInterface.copyParam, h1, h2]
    · cases h'

theorem latest_found {db : DB} {k : String} {idt : Obj} {a : Obj} (hl : LatestIdToken db k idt)
    (h : StateInterface.multipleExtendRequestArgs db [] k ["id_token"] RESPONSES = .ok a) :
    Dict.get? a "id_token" = some (.obj idt) := by
  obtain ⟨b, i, af, e, ⟨r, hr, hv⟩, hlater⟩ := hl
  unfold StateInterface.multipleExtendRequestArgs at h
  cases hst : StateInterface.getState db k with
  | error e' => rw [hst] at h; cases h
  | ok st =>
    rw [hst] at h
    simp only [show RESPONSES = b ++ i :: af from e] at h
    rw [multiExtend_append] at h
    cases h1 : StateInterface.multiExtendLoop st ["id_token"] false b [] with
    | error e' => rw [h1] at h; cases h
    | ok a1 =>
      rw [h1] at h
      simp only [StateInterface.multiExtendLoop] at h
      have hg : StateInterface.asItem (Dict.get? st i) = .ok r := by
        simpa [StateInterface.getItem, hst] using hr
      cases hgi : Dict.get? st i with
      | none => rw [hgi] at hg; cases hg
      | some w =>
        rw [hgi] at hg h
        cases w with
        | obj o =>
          injection hg with hg
          simp only at h
          have := multiExtend_unchanged db k st hst "id_token" af hlater _ _ h
          rw [this]
          simp only [List.foldl_cons, List.foldl_nil, StateInterface.copyParam]
          rw [hg, show Msg.verifiedName "id_token" = "__verified_id_token" from by decide, hv]
          simp [Dict.get?_set_self]
        | _ => cases hg

/-! ### aggregated claims -/

/-- The claims a response says to come from other sources. -/
def elsewhere (resp : Obj) : List String :=
  match Dict.get? resp "_claim_names" with
  | some (.obj n) => Dict.keys n
  | _ => []

theorem takeClaims_get {csrc : String} {claims : Obj} (names : Obj) :
    ∀ {resp r : Obj}, takeClaims csrc claims names resp = .ok r →
      ∀ k, k ∉ Dict.keys names → Dict.get? r k = Dict.get? resp k := by
  induction names with
  | nil => intro resp r h k _; injection h with h; rw [h]
  | cons p names ih =>
    obtain ⟨n, src⟩ := p
    intro resp r h k hk
    simp only [Dict.keys, List.map_cons, List.mem_cons, not_or] at hk
    unfold takeClaims at h
    split at h
    · split at h
      · cases h
      · rw [ih h k hk.2, Dict.get?_set_ne _ _ (fun e => hk.1 e.symm)]
    · exact ih h k hk.2

theorem claimSource_get {x : Ext} {c : Client} {state csrc : String} {spec : Val} {resp r : Obj}
    (h : claimSource x c state csrc spec resp = .ok r) (k : String) (hk : k ∉ elsewhere resp) :
    Dict.get? r k = Dict.get? resp k := by
  unfold claimSource at h
  split at h
  · split at h
    · unfold aggregate at h
      split at h
      · injection h with h; rw [h]
      · cases h
      · split at h
        · cases h
        · next v hv =>
          split at h
          · cases h
          · next names hn =>
            apply takeClaims_get names h
            have hv' := Dict.getItem_eq_ok.1 hv
            unfold itemsOf at hn
            split at hn
            · injection hn with hn; subst hn
              simpa [elsewhere, hv'] using hk
            · cases hn
    · split at h
      · cases ha : sourceHeader x c state with
        | error e => rw [ha] at h; cases h
        | ok a => rw [ha] at h; injection h with h; subst h; rfl
      · injection h with h; rw [h]
  · split at h
    · cases h
    · split at h
      · cases ha : sourceHeader x c state with
        | error e => rw [ha] at h; cases h
        | ok a => rw [ha] at h; cases h
      · injection h with h; rw [h]
  · split at h
    · cases h
    · split at h
      · cases ha : sourceHeader x c state with
        | error e => rw [ha] at h; cases h
        | ok a => rw [ha] at h; cases h
      · injection h with h; rw [h]
  · cases h

theorem claimSources_get {x : Ext} {c : Client} {state : String} (srcs : Obj) :
    ∀ {resp r : Obj}, claimSources x c state srcs resp = .ok r → "_claim_names" ∉ elsewhere resp →
      ∀ k, k ∉ elsewhere resp → Dict.get? r k = Dict.get? resp k := by
  induction srcs with
  | nil => intro resp r h _ k _; injection h with h; rw [h]
  | cons p srcs ih =>
    obtain ⟨csrc, spec⟩ := p
    intro resp r h hn k hk
    unfold claimSources at h
    cases h1 : claimSource x c state csrc spec resp with
    | error e => rw [h1] at h; cases h
    | ok r1 =>
      rw [h1] at h
      simp only at h
      have hel : elsewhere r1 = elsewhere resp := by
        unfold elsewhere; rw [claimSource_get h1 "_claim_names" hn]
      rw [ih h (by rw [hel]; exact hn) k (by rw [hel]; exact hk), claimSource_get h1 k hk]

theorem allSources_get {x : Ext} {c : Client} {state : String} {resp r : Obj}
    (h : allSources x c resp state = .ok r) (hn : "_claim_names" ∉ elsewhere resp)
    (k : String) (hk : k ∉ elsewhere resp) : Dict.get? r k = Dict.get? resp k := by
  unfold allSources at h
  split at h
  · injection h with h; rw [h]
  · split at h
    · cases h
    · exact claimSources_get _ h hn k hk

theorem storeItem_getItem {db : DB} {item : Obj} {t k : String} {u : Unit} {db' : DB}
    (h : StateInterface.storeItem item t k db = (.ok u, db')) :
    StateInterface.getItem db' t k = .ok (Msg.ofDict item) := by
  have key : ∀ st : Obj, Dict.get? (Msg.ofDict (Dict.set st t (.obj item))) t = some (.obj item) :=
    fun st => Msg.get?_ofDict_some (Dict.get?_set_self _ _ _) rfl
  unfold StateInterface.storeItem at h
  split at h
  · injection h with _ h; subst h
    simp [StateInterface.getItem, StateInterface.getState, Dict.get?_set_self, key, StateInterface.asItem]
  · injection h with _ h; subst h
    simp [StateInterface.getItem, StateInterface.getState, Dict.get?_set_self, key, StateInterface.asItem]
  · simp at h

/-- What an accepted user info response went through. -/
theorem userinfo_accepted {x : Ext} {info : Info} {sformat state : String} {c c' : Client} {r : Obj}
    (h : parseResponse x .userinfo info sformat state c = (.ok (.msg r), c'))
    (hne : Dict.has r "error" = false) :
    ∃ parsed v args, parseInfo x c.ctx .userinfo info (formatOf c .userinfo sformat) = .ok parsed ∧
      x.verify c.ctx .userinfo parsed (gatherVerify c.ctx .userinfo) = .ok v ∧
      StateInterface.multipleExtendRequestArgs c.db [] state ["id_token"] RESPONSES = .ok args ∧
      sameSub args v = .ok () ∧ allSources x c v state = .ok r ∧
      StateInterface.getItem c'.db "user_info" state = .ok (Msg.ofDict r) := by
  obtain ⟨parsed, hp, h'⟩ := C39_returned_is_verified x .userinfo info sformat state c c' r h
  rcases h' with ⟨he, rfl, _⟩ | ⟨_, v, hv, hpost, _⟩
  · rw [he] at hne; cases hne
  · simp only [postParse] at hpost
    obtain ⟨r1, c1, h1, h2⟩ := Py.bind_eq_ok.1 hpost
    simp only [ask, Prod.mk.injEq] at h1
    obtain ⟨h1, rfl⟩ := h1
    obtain ⟨u, c2, h3, h4⟩ := Py.bind_eq_ok.1 h2
    simp only [Py.pure_run, Prod.mk.injEq, Except.ok.injEq] at h4
    obtain ⟨rfl, rfl⟩ := h4
    unfold userinfoChecked at h1
    cases ha : StateInterface.multipleExtendRequestArgs c.db [] state ["id_token"] RESPONSES with
    | error e => rw [ha] at h1; cases h1
    | ok args =>
      rw [ha] at h1; simp only at h1
      cases hs : sameSub args v with
      | error e => rw [hs] at h1; cases h1
      | ok u =>
        rw [hs] at h1
        refine ⟨parsed, v, args, hp, hv, rfl, hs, h1, ?_⟩
        simp only [onDB, Prod.mk.injEq] at h3
        obtain ⟨h3, rfl⟩ := h3
        exact storeItem_getItem (u := u) (Prod.ext h3 rfl)

/-- **C25** (accepted means same subject; what holds).  If the session has a verified ID Token with a
subject and user info is accepted, the verified user info has that subject; and unless it says that `sub`
(or the list of sources itself) is to be taken from another source, the user info that is returned and
stored has it, too. -/
theorem C25_same_subject_partial (x : Ext) (info : Info) (sformat state : String) (c c' : Client) (r idt : Obj)
    (sub : String) (hsub : sub ≠ "")
    (h : parseResponse x .userinfo info sformat state c = (.ok (.msg r), c'))
    (hne : Dict.has r "error" = false) (hl : LatestIdToken c.db state idt)
    (hs : Dict.get? idt "sub" = some (.str sub)) :
    ∃ parsed v, parseInfo x c.ctx .userinfo info (formatOf c .userinfo sformat) = .ok parsed ∧
      x.verify c.ctx .userinfo parsed (gatherVerify c.ctx .userinfo) = .ok v ∧
      Dict.get? v "sub" = some (.str sub) ∧
      ("sub" ∉ elsewhere v → "_claim_names" ∉ elsewhere v →
        Dict.get? r "sub" = some (.str sub) ∧
        ∃ stored, StateInterface.getItem c'.db "user_info" state = .ok stored ∧
          Dict.get? stored "sub" = some (.str sub)) := by
  obtain ⟨parsed, v, args, hp, hv, ha, hsame, hall, hst⟩ := userinfo_accepted h hne
  have hid := latest_found hl ha
  unfold sameSub at hsame
  rw [hid] at hsame
  simp only [hs] at hsame
  have hvs : Dict.get? v "sub" = some (.str sub) := by
    cases hg : Dict.get? v "sub" with
    | none => rw [hg] at hsame; cases hsame
    | some s' =>
      rw [hg] at hsame
      simp only at hsame
      split at hsame
      · next e => rw [e]
      · cases hsame
  refine ⟨parsed, v, hp, hv, hvs, ?_⟩
  intro h1 h2
  have hr : Dict.get? r "sub" = some (.str sub) := by rw [allSources_get hall h2 "sub" h1]; exact hvs
  refine ⟨hr, _, hst, Msg.get?_ofDict_some hr ?_⟩
  simp [Msg.emptyVal, hsub]

/-- **C25** (another subject is an exception, nothing is stored).  User info with another subject than the
verified ID Token of the session, or with none, is not accepted, and nothing changes. -/
theorem C25_other_subject_refused (x : Ext) (info : Info) (sformat state : String) (c : Client)
    (parsed v idt : Obj) (s : Val) (hf : formatOf c .userinfo sformat ∉ ["jose", "jws", "jwe"])
    (hp : parseInfo x c.ctx .userinfo info (formatOf c .userinfo sformat) = .ok parsed)
    (hne : Dict.has parsed "error" = false)
    (hv : x.verify c.ctx .userinfo parsed (gatherVerify c.ctx .userinfo) = .ok v)
    (hl : LatestIdToken c.db state idt) (hs : Dict.get? idt "sub" = some s)
    (hbad : Dict.get? v "sub" ≠ some s) :
    ∃ e, parseResponse x .userinfo info sformat state c = (.error e, c) := by
  have hj : isJose (formatOf c .userinfo sformat) = false := by
    simp only [List.mem_cons, List.not_mem_nil, or_false, not_or] at hf
    simp [isJose, hf.1, hf.2.1, hf.2.2]
  have hchk : ∃ e, userinfoChecked x v state c = .error e := by
    unfold userinfoChecked
    cases ha : StateInterface.multipleExtendRequestArgs c.db [] state ["id_token"] RESPONSES with
    | error e => exact ⟨e, rfl⟩
    | ok args =>
      have hid := latest_found hl ha
      simp only [sameSub, hid, hs]
      cases hg : Dict.get? v "sub" with
      | none => exact ⟨_, rfl⟩
      | some s' =>
        have : s' ≠ s := by rintro rfl; exact hbad hg
        simp only [if_neg this]
        exact ⟨_, rfl⟩
  obtain ⟨e, he⟩ := hchk
  refine ⟨e, ?_⟩
  rw [parseResponse_plain hj, hp]
  simp only
  unfold verified checkedResponse
  rw [show Msg.isError parsed = false from hne]
  simp only [Bool.false_eq_true, if_false]
  rw [Py.bind_run, Py.bind_run]
  simp only [ask, hv, postParse]
  rw [Py.bind_run]
  simp only [ask, he]

/-- A store for examples: session `s` of `alice`. -/
def aliceDb : DB := [("s", .doc [("iss", .str "https://op"),
  ("token_response", .obj [("id_token", .str "t"),
    ("__verified_id_token", .obj [("sub", .str "alice"), ("exp", .int 2000)])])])]

/-- A world in which aggregated claims say that the subject is `mallory`. -/
def aggregating : Ext := { World.ext 0 "" "" "" with aggregated := fun _ _ => .ok [("sub", .str "mallory")] }

/-- **C25** violated: user info whose own subject is right, but which names an aggregated source for `sub`,
is accepted, and what is returned and stored has the other subject. -/
theorem C25_aggregated_violated :
    ∃ c' r, parseResponse aggregating .userinfo (.dict [("sub", .str "alice"),
        ("_claim_names", .obj [("sub", .str "src1")]),
        ("_claim_sources", .obj [("src1", .obj [("JWT", .str "signed")])])]) "dict" "s"
          { db := aliceDb } = (.ok (.msg r), c') ∧
      Dict.get? r "sub" = some (.str "mallory") ∧
      ∃ o, StateInterface.getItem c'.db "user_info" "s" = .ok o ∧
        Dict.get? o "sub" = some (.str "mallory") :=
  ⟨_, _, rfl, rfl, _, rfl, rfl⟩

/-- Non-vacuity of C25: `alice` is accepted, `bob` is not. -/
example : LatestIdToken aliceDb "s" [("sub", .str "alice"), ("exp", .int 2000)] ∧
    (parseResponse (World.ext 0 "" "" "") .userinfo (.dict [("sub", .str "alice"), ("name", .str "A")])
      "dict" "s" { db := aliceDb }).1 = .ok (.msg [("sub", .str "alice"), ("name", .str "A")]) ∧
    (parseResponse (World.ext 0 "" "" "") .userinfo (.dict [("sub", .str "bob")])
      "dict" "s" { db := aliceDb }).1 = .error .valueError := by
  refine ⟨⟨["auth_response"], "token_response", ["refresh_token_response"], rfl, ⟨_, rfl, rfl⟩, ?_⟩, rfl, rfl⟩
  intro later hl r hr
  simp only [List.mem_cons, List.not_mem_nil, or_false] at hl
  subst hl; cases hr

end Verif.Props
