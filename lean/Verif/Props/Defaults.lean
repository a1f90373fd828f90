import Verif.Lemmas.Defaults
import Verif.Lemmas.World
import Verif.Props.Begin
import Verif.Props.Assembly
import Verif.Props.NewClient
/-!
# C127: handlers made with the defaults
-/

namespace Verif.Props
open Verif Verif.Service Verif.Handler Verif.Defaults Verif.Spec.InFlight
open Verif.Spec.Store (KeySpace)
open Verif.Spec.Assembly

/-! ## Specification -/

/-- The calls of the `i`-th handler among what happens, `n` handlers having been made before. -/
def callsOf (i : Nat) : Nat → List Event → List (Ext × Call)
  | _, [] => []
  | n, .make _ :: l => callsOf i (n + 1) l
  | n, .call j x c :: l => if j = i ∧ i < n then (x, c) :: callsOf i n l else callsOf i n l

/-- The handler `h` of a process, made with `g`, is in the state of `a`: they keep the same clients, and differ at most in what they see in
the dictionary `DEFAULT_CLIENT_CONFIGS`. -/
structure LikeAlone (g : Given) (h a : Handler) : Prop where
  clients : h.issuer2rp = a.issuer2rp
  callbacks : h.hash2issuer = a.hash2issuer
  rest : (h.baseUrl, h.jwksUri, h.keyLoads) = (a.baseUrl, a.jwksUri, a.keyLoads)
  own : g.configs.isSome = true → h = a

/-! ## Handlers of one process -/

/-- What the handlers share, and what is the same for `h` in the process and for `a` on its own. -/
def Like (g : Given) (h a : Handler) : Prop :=
  (g.configs.isSome = true → h = a) ∧
  (g.configs.isSome = false → (∃ C, h = withConfigs C a) ∧ Family (servicesOf g) a.configs)

theorem like_new (shared : Obj) (hs : Held shared) (g : Given) :
    Like g (newHandler shared g) (newHandler DEFAULT_CLIENT_CONFIG g) := by
  rcases hc : g.configs with _ | C <;> unfold Like <;> rw [hc]
  · refine ⟨fun h => (by cases h), fun _ => ⟨⟨defaultConfigs shared (servicesOf g), ?_⟩, DEFAULT_CLIENT_CONFIG, Or.inl rfl, ?_⟩⟩
    · unfold newHandler; rw [hc]; rfl
    · unfold newHandler; rw [hc]; rfl
  · refine ⟨fun _ => ?_, fun h => by cases h⟩
    unfold newHandler
    rw [hc]
    rfl

theorem held_leaves {shared : Obj} (hs : Held shared) (g : Given) (h : Handler) (xc : Ext × Call) :
    Held (leaves shared g (exec xc.1 xc.2 (sees shared g h)).2) := by
  unfold leaves
  split
  · exact hs
  · next hg =>
    have e : sees shared g h = withConfigs (defaultConfigs shared (servicesOf g)) h := by unfold sees; rw [if_neg hg]
    have hl := leaves_exec xc (S := servicesOf g) (h := sees shared g h) (by rw [e]; exact ⟨shared, hs, rfl⟩)
    unfold Leaves at hl
    obtain ⟨o, ho, eo⟩ := hl
    rw [eo, get?_default, if_pos rfl]
    exact ho

theorem step_none {p : Process} {i : Nat} {x : Ext} {c : Call} (h : p.handlers[i]? = none) : step p (.call i x c) = p := by
  simp only [step, h]

theorem step_some {p : Process} {i : Nat} {x : Ext} {c : Call} {g : Given} {h : Handler} (hi : p.handlers[i]? = some (g, h)) :
    step p (.call i x c) = { shared := leaves p.shared g (exec x c (sees p.shared g h)).2,
                             handlers := p.handlers.set i (g, (exec x c (sees p.shared g h)).2) } := by
  simp only [step, hi]

theorem step_length (p : Process) (i : Nat) (x : Ext) (c : Call) : (step p (.call i x c)).handlers.length = p.handlers.length := by
  rcases h : p.handlers[i]? with _ | ⟨g, h'⟩
  · rw [step_none h]
  · rw [step_some h]; simp

theorem step_other (p : Process) {i j : Nat} (x : Ext) (c : Call) (hj : j ≠ i) :
    (step p (.call j x c)).handlers[i]? = p.handlers[i]? := by
  rcases h : p.handlers[j]? with _ | ⟨g, h'⟩
  · rw [step_none h]
  · rw [step_some h]; simp [List.getElem?_set_ne hj]

theorem held_step {p : Process} (hs : Held p.shared) (e : Event) : Held (step p e).shared := by
  cases e with
  | make g => exact hs
  | call i x c =>
    rcases h : p.handlers[i]? with _ | ⟨g, h'⟩
    · rw [step_none h]; exact hs
    · rw [step_some h]; exact held_leaves hs g h' (x, c)

theorem held_process (l : List Event) : ∀ {p : Process}, Held p.shared → Held (process l p).shared := by
  induction l with
  | nil => intro p hs; exact hs
  | cons e l ih => intro p hs; exact ih (held_step hs e)

/-- One call. -/
theorem like_call {shared : Obj} (hs : Held shared) {g : Given} {h a : Handler} (hl : Like g h a) (x : Ext) (c : Call)
    (hn : g.configs.isSome = false → NamesIssuer c) :
    (exec x c (sees shared g h)).1 = (exec x c a).1 ∧ Like g (exec x c (sees shared g h)).2 (exec x c a).2 := by
  unfold sees
  cases hg : g.configs.isSome with
  | true =>
    rw [hl.1 hg, if_pos rfl]
    unfold Like
    rw [hg]
    exact ⟨rfl, fun _ => rfl, fun h' => by cases h'⟩
  | false =>
    obtain ⟨⟨C, rfl⟩, hf⟩ := hl.2 hg
    obtain ⟨e1, D, hD, e2⟩ := blind_exec x c (hn hg) hf (defaultConfigs shared (servicesOf g)) ⟨shared, hs, rfl⟩
    refine ⟨e1, ?_⟩
    unfold Like
    rw [hg]
    exact ⟨fun h' => (by cases h'), fun _ => ⟨⟨D, e2⟩, leaves_exec (x, c) hf⟩⟩

/-- A handler that is there already. -/
theorem like_process (i : Nat) (g : Given) : ∀ (l : List Event) (p : Process) (h h' a : Handler), Held p.shared →
    p.handlers[i]? = some (g, h) → Like g h a → (∀ xc ∈ callsOf i p.handlers.length l, g.configs.isSome = false → NamesIssuer xc.2) →
    ∀ g', (process l p).handlers[i]? = some (g', h') → g' = g ∧ Like g h' (run (callsOf i p.handlers.length l) a) := by
  intro l
  induction l with
  | nil =>
    intro p h h' a _ hi hl _ g' hi'
    rw [process, List.foldl_nil, hi] at hi'
    injection hi' with hi'
    injection hi' with e1 e2
    subst e1 e2
    exact ⟨rfl, hl⟩
  | cons e l ih =>
    intro p h h' a hs hi hl hn g' hi'
    have hlt : i < p.handlers.length := (List.getElem?_eq_some_iff.1 hi).1
    cases e with
    | make g2 =>
      have hlen : (step p (.make g2)).handlers.length = p.handlers.length + 1 := by simp [step]
      have := ih (step p (.make g2)) h h' a hs (by simp [step, List.getElem?_append_left hlt, hi]) hl
        (by rw [hlen]; exact hn) g' hi'
      rw [hlen] at this
      exact this
    | call j x c =>
      have hs' : Held (step p (.call j x c)).shared := held_step hs _
      by_cases hj : j = i
      · subst hj
        have hc : callsOf j p.handlers.length (.call j x c :: l) = (x, c) :: callsOf j p.handlers.length l := by
          rw [callsOf, if_pos ⟨rfl, hlt⟩]
        rw [hc] at hn ⊢
        obtain ⟨_, e2⟩ := like_call hs hl x c (hn (x, c) (List.mem_cons_self ..))
        have hst := step_some (x := x) (c := c) hi
        have hlen := step_length p j x c
        have := ih (step p (.call j x c)) _ h' _ hs' (by rw [hst]; simp [hlt]) e2
          (by rw [hlen]; exact fun xc hx => hn xc (List.mem_cons_of_mem _ hx)) g' hi'
        rw [hlen] at this
        exact this
      · have hc : callsOf i p.handlers.length (.call j x c :: l) = callsOf i p.handlers.length l := by
          rw [callsOf, if_neg fun h => hj h.1]
        rw [hc] at hn ⊢
        have hlen := step_length p j x c
        have hget : (step p (.call j x c)).handlers[i]? = some (g, h) := (step_other p x c hj).trans hi
        have := ih (step p (.call j x c)) h h' a hs' hget hl (by rw [hlen]; exact hn) g' hi'
        rw [hlen] at this
        exact this

/-- A handler that is made on the way. -/
theorem like_made (i : Nat) : ∀ (l : List Event) (p : Process) (g : Given) (h' : Handler), Held p.shared → p.handlers[i]? = none →
    (process l p).handlers[i]? = some (g, h') → (∀ xc ∈ callsOf i p.handlers.length l, g.configs.isSome = false → NamesIssuer xc.2) →
    Like g h' (run (callsOf i p.handlers.length l) (newHandler DEFAULT_CLIENT_CONFIG g)) := by
  intro l
  induction l with
  | nil => intro p g h' _ hi hi' _; rw [process, List.foldl_nil, hi] at hi'; cases hi'
  | cons e l ih =>
    intro p g h' hs hi hi' hn
    have hge : p.handlers.length ≤ i := List.getElem?_eq_none_iff.1 hi
    cases e with
    | make g2 =>
      have hlen : (step p (.make g2)).handlers.length = p.handlers.length + 1 := by simp [step]
      by_cases hnow : i = p.handlers.length
      · subst hnow
        have hget : (step p (.make g2)).handlers[p.handlers.length]? = some (g2, newHandler p.shared g2) := by simp [step]
        have hg2 : g = g2 := by
          clear hn ih
          have key : ∀ (l : List Event) (q : Process) (h : Handler), q.handlers[p.handlers.length]? = some (g2, h) →
              ∀ g h', (process l q).handlers[p.handlers.length]? = some (g, h') → g = g2 := by
            intro l
            induction l with
            | nil => intro q h e g h' e'; rw [process, List.foldl_nil, e] at e'; injection e' with e'; injection e' with e1 _; exact e1.symm
            | cons e l ih =>
              intro q h he g h' e'
              cases e with
              | make g3 =>
                have hlt := (List.getElem?_eq_some_iff.1 he).1
                exact ih (step q (.make g3)) h (by simp only [step]; rw [List.getElem?_append_left hlt]; exact he) g h' e'
              | call j x c =>
                by_cases hj : j = p.handlers.length
                · have hlt := (List.getElem?_eq_some_iff.1 he).1
                  refine ih (step q (.call j x c)) (exec x c (sees q.shared g2 h)).2 ?_ g h' e'
                  subst hj
                  rw [step_some he]
                  simp [hlt]
                · exact ih (step q (.call j x c)) h ((step_other q x c hj).trans he) g h' e'
          exact key l _ _ hget g h' hi'
        subst hg2
        have := like_process p.handlers.length g l (step p (.make g)) _ h' _ hs hget (like_new p.shared hs g) (by rw [hlen]; exact hn) g hi'
        rw [hlen] at this
        exact this.2
      · have := ih (step p (.make g2)) g h' hs (by rw [List.getElem?_eq_none_iff, hlen]; omega) hi' (by rw [hlen]; exact hn)
        rw [hlen] at this
        exact this
    | call j x c =>
      have hlen := step_length p j x c
      have hc : callsOf i p.handlers.length (.call j x c :: l) = callsOf i p.handlers.length l := by
        rw [callsOf, if_neg fun h => by omega]
      rw [hc] at hn ⊢
      have := ih (step p (.call j x c)) g h' (held_step hs _) (by rw [List.getElem?_eq_none_iff, hlen]; omega) hi' (by rw [hlen]; exact hn)
      rw [hlen] at this
      exact this

/-- **C127** (handlers of one process do not affect each other).  Handlers are made and called in one process in whatever way, with all
answers, exceptions and random values; some of them with configurations of their own, some with the default ones, which they share.  Every
handler whose logins name the issuer (or that has configurations of its own) keeps at the end the clients, sessions included, that it would keep
if it were the only handler and just its own calls were made, and its next call (again not the start of a login by user identifier) returns what it
would return then. -/
theorem C127_apart_partial (l : List Event) (i : Nat) (g : Given) (h : Handler)
    (hi : (process l {}).handlers[i]? = some (g, h))
    (hn : ∀ xc ∈ callsOf i 0 l, g.configs = none → NamesIssuer xc.2) :
    LikeAlone g h (run (callsOf i 0 l) (newHandler DEFAULT_CLIENT_CONFIG g)) ∧
    ∀ x c, (g.configs = none → NamesIssuer c) →
      returned i x c (process l {}) = some (exec x c (run (callsOf i 0 l) (newHandler DEFAULT_CLIENT_CONFIG g))).1 := by
  have hnone : g.configs.isSome = false → g.configs = none := fun e => by
    cases hc : g.configs with
    | none => rfl
    | some _ => rw [hc] at e; cases e
  have hl := like_made i l {} g h (Or.inl rfl) rfl hi (fun xc hx e => hn xc hx (hnone e))
  refine ⟨?_, fun x c hc => ?_⟩
  · cases hg : g.configs.isSome with
    | true => rw [hl.1 hg]; exact ⟨rfl, rfl, rfl, fun _ => rfl⟩
    | false =>
      obtain ⟨⟨C, e⟩, _⟩ := hl.2 hg
      rw [e]
      exact ⟨rfl, rfl, rfl, fun h' => by rw [hg] at h'; cases h'⟩
  · unfold returned
    rw [hi]
    exact congrArg some (like_call (held_process l (Or.inl rfl)) hl x c fun e => hc (hnone e)).1

/-! ## What a default handler's clients are -/

theorem default_assembled (S : List Srv) (o : Obj) :
    defaultConf o S = Entity.clientConf o [] (Entity.addPkce (.int 64) (.str "S256") (Entity.initServices S []) []) := rfl

theorem madeOf_sees {C : Dict ClientConf} {J : String} {g : Given} {h : Handler} (shared : Obj) (hg : g.configs = none)
    (hC : C = defaultConfigs DEFAULT_CLIENT_CONFIG (servicesOf g)) (hm : MadeOf C J h) : MadeOf C J (sees shared g h) := by
  unfold sees
  rw [hg]
  refine ⟨hm.clients, fun n cc hc => ?_, hm.jwksUri⟩
  subst hC
  have hc : Dict.get? (defaultConfigs shared (servicesOf g)) n = some cc := hc
  rw [get?_default] at hc ⊢
  split at hc
  · next e => rw [if_pos e]; injection hc with hc; subst hc; exact ⟨_, rfl, rfl, rfl, rfl⟩
  · cases hc

theorem madeOf_process (i : Nat) : ∀ (l : List Event) (p : Process),
    (∀ g h, p.handlers[i]? = some (g, h) → g.configs = none →
      MadeOf (defaultConfigs DEFAULT_CLIENT_CONFIG (servicesOf g)) (newHandler DEFAULT_CLIENT_CONFIG g).jwksUri h) →
    ∀ g h, (process l p).handlers[i]? = some (g, h) → g.configs = none →
      MadeOf (defaultConfigs DEFAULT_CLIENT_CONFIG (servicesOf g)) (newHandler DEFAULT_CLIENT_CONFIG g).jwksUri h := by
  intro l
  induction l with
  | nil => intro p hp; exact hp
  | cons e l ih =>
    intro p hp
    refine ih (step p e) fun g h hi hg => ?_
    cases e with
    | make g2 =>
      simp only [step] at hi
      by_cases hlt : i < p.handlers.length
      · rw [List.getElem?_append_left hlt] at hi; exact hp g h hi hg
      · rw [List.getElem?_append_right (by omega)] at hi
        have : i - p.handlers.length = 0 := by
          rcases hk : i - p.handlers.length with _ | k
          · rfl
          · rw [hk] at hi; simp at hi
        rw [this] at hi
        simp only [List.getElem?_cons_zero, Option.some.injEq, Prod.mk.injEq] at hi
        obtain ⟨rfl, rfl⟩ := hi
        refine ⟨fun n c hc => (by unfold newHandler at hc; cases hc), fun n cc hc => ?_, by rfl⟩
        have hc : Dict.get? (newHandler p.shared g2).configs n = some cc := hc
        unfold newHandler at hc
        rw [hg] at hc
        simp only [Option.getD_none, get?_default] at hc
        rw [get?_default]
        split at hc
        · next e => rw [if_pos e]; injection hc with hc; subst hc; exact ⟨_, rfl, rfl, rfl, rfl⟩
        · cases hc
    | call j x c =>
      rcases hj : p.handlers[j]? with _ | ⟨g2, h2⟩
      · rw [step_none hj] at hi; exact hp g h hi hg
      · by_cases e : j = i
        · subst e
          rw [step_some hj] at hi
          simp only at hi
          rw [List.getElem?_set_self (List.getElem?_eq_some_iff.1 hj).1] at hi
          injection hi with hi
          injection hi with e1 e2
          subst e1 e2
          exact madeOf_exec (madeOf_sees p.shared hg rfl (hp g2 h2 hj hg)) (x, c)
        · rw [step_other p x c e] at hi
          exact hp g h hi hg

/-- Joining a base URL and a path. -/
theorem addPath_joins (base p q : String) (hp : p = "/" ++ q ∨ (p = q ∧ ¬ ∃ r, p = "/" ++ r)) :
    ∃ t, Util.addPath base p = t ++ "/" ++ q ∧ (base = t ∨ base = t ++ "/") := by
  unfold Util.addPath
  by_cases hb : Str.endsWith base "/" = true
  · obtain ⟨t, ht⟩ := (Str.endsWith_iff _ _).1 hb
    refine ⟨t, ?_, Or.inr ht⟩
    rw [if_pos hb, ht]
    rcases hp with rfl | ⟨rfl, hno⟩
    · rw [if_pos ((Str.startsWith_iff _ _).2 ⟨q, rfl⟩)]
      have : Str.drop1 ("/" ++ q) = q := by
        unfold Str.drop1
        rw [String.toList_append]
        exact String.ofList_toList
      rw [this]
    · rw [if_neg (fun h => hno ((Str.startsWith_iff _ _).1 h))]
  · refine ⟨base, ?_, Or.inl rfl⟩
    rw [if_neg hb]
    rcases hp with rfl | ⟨rfl, hno⟩
    · rw [if_pos ((Str.startsWith_iff _ _).2 ⟨q, rfl⟩), String.append_assoc]
    · rw [if_neg (fun h => hno ((Str.startsWith_iff _ _).1 h))]

theorem set_at_end {α : Type} (d : Dict α) (k : String) (v : α) (h : Dict.get? d k = none) : Dict.set d k v = d ++ [(k, v)] := by
  induction d with
  | nil => rfl
  | cons p d ih =>
    obtain ⟨q, w⟩ := p
    rw [Dict.get?_cons] at h
    by_cases e : q = k
    · rw [if_pos e] at h; cases h
    · rw [if_neg e] at h
      simp only [Dict.set, if_neg e, ih h, List.cons_append]

theorem set_present {α : Type} (d : Dict α) (k : String) (v : α) (h : Dict.get? d k = some v) : Dict.set d k v = d := by
  induction d with
  | nil => cases h
  | cons p d ih =>
    obtain ⟨q, w⟩ := p
    rw [Dict.get?_cons] at h
    by_cases e : q = k
    · rw [if_pos e] at h
      injection h with h
      subst e h
      simp only [Dict.set, if_true]
    · rw [if_neg e] at h
      simp only [Dict.set, if_neg e, ih h]

theorem init_distinct : ∀ (S : List Srv) (d : Entity.Services), (S.map Srv.name).Nodup → (∀ s ∈ S, Dict.get? d s.name = none) →
    Entity.initServices S d = d ++ S.map (fun s => (s.name, Entity.newService s)) := by
  intro S
  induction S with
  | nil => intro d _ _; simp [Entity.initServices]
  | cons s S ih =>
    intro d hn hd
    rw [List.map_cons, List.nodup_cons] at hn
    rw [Entity.initServices, ih _ hn.2 ?_, set_at_end _ _ _ (hd s (List.mem_cons_self ..)), List.map_cons, List.append_assoc]
    · rfl
    · intro s' hs'
      have hne : s.name ≠ s'.name := fun e => hn.1 (List.mem_map.2 ⟨s', hs', e.symm⟩)
      rw [Dict.get?_set_ne _ _ hne]
      exact hd s' (List.mem_cons_of_mem _ hs')

theorem services_kept (S : List Srv) (hn : (S.map Srv.name).Nodup) :
    (Entity.clientConf DEFAULT_CLIENT_CONFIG [] (Entity.addPkce (.int 64) (.str "S256") (Entity.initServices S []) [])).services = S := by
  have hsrv : ∀ d, (Entity.newService d).srv = d := fun d => by cases d <;> rfl
  have h0 : (Entity.initServices S []).map (fun p => Entity.Inst.srv p.2) = S := by
    rw [init_distinct S [] hn (fun _ _ => rfl)]
    simp [hsrv, Function.comp_def]
  have hval : ∀ (d : Entity.Services), d.map (fun p => Entity.Inst.srv p.2) = (d.map (fun p => (p.1, Entity.Inst.srv p.2))).map Prod.snd := fun d => by
    rw [List.map_map]; rfl
  have hget : ∀ (d : Entity.Services) n i, Dict.get? d n = some i → Dict.get? (d.map (fun p => (p.1, Entity.Inst.srv p.2))) n = some i.srv :=
    fun d n i h => by rw [Dict.get?_map, h]; rfl
  unfold Entity.addPkce
  split
  · next a t ha ht =>
    show (Dict.set (Dict.set _ _ _) _ _).map (fun p => Entity.Inst.srv p.2) = S
    rw [hval, Handler.map_set, Handler.map_set]
    rw [set_present _ "authorization" _ (hget _ _ _ ha), set_present _ "accesstoken" _ (hget _ _ _ ht), ← hval]
    exact h0
  · exact h0

/-- **C127** (what a client of a default handler is).  Whatever happened in the process, to this and other handlers: every client that a handler made
without configurations keeps uses PKCE with the method S256 and verifiers of 64 characters, if the handler was not given services without the two that this takes; it has the services given, or if none were given, these seven, or if it was
given an empty dictionary, the seven that the client falls back to; and it publishes its
keys at the place given, or if neither a place nor keys were given, at `static/jwks.json`. -/
theorem C127_made (l : List Event) (i : Nat) (g : Given) (h : Handler) (hi : (process l {}).handlers[i]? = some (g, h)) (hg : g.configs = none)
    (n : String) (c : Client) (hc : Dict.get? h.issuer2rp n = some c) :
    ((∀ S, g.services = some S → S ≠ [] → (∃ s ∈ S, s.name = "authorization") ∧ (∃ s ∈ S, s.name = "accesstoken")) →
      Pkce c ∧ pkceMethod c.ctx = "S256" ∧ Dict.get? (addOnConf c.ctx "pkce") "code_challenge_length" = some (.int 64)) ∧
    (g.services = none → c.services = [.webfinger, .providerInfo, .registration, .authorization, .accesstoken, .refreshToken, .userinfo]) ∧
    (∀ S, g.services = some S → S ≠ [] → (S.map Srv.name).Nodup → c.services = S) ∧
    (g.services = some [] → c.services = [.providerInfo, .registration, .authorization, .accesstoken, .refreshToken, .userinfo, .endSession]) ∧
    (∀ p, g.jwksPath = some p → p ≠ "" → ∀ q, p = "/" ++ q ∨ (p = q ∧ ¬ ∃ r, p = "/" ++ r) →
      ∃ t, c.ctx.jwksUri = t ++ "/" ++ q ∧ (g.baseUrl = t ∨ g.baseUrl = t ++ "/")) ∧
    (g.jwksPath = none → g.keyjar = none → ∃ t, c.ctx.jwksUri = t ++ "/static/jwks.json" ∧ (g.baseUrl = t ∨ g.baseUrl = t ++ "/")) := by
  obtain ⟨cc, e1, e2, _, e4, e5⟩ := (madeOf_process i l {} (fun g h hi => by cases hi) g h hi hg).clients n c hc
  have hcc : cc = defaultConf DEFAULT_CLIENT_CONFIG (servicesOf g) := by
    rw [get?_default] at e1
    split at e1
    · injection e1 with e1; exact e1.symm
    · cases e1
  subst hcc
  have haddPath : ∀ p q, (p = "/" ++ q ∨ (p = q ∧ ¬ ∃ r, p = "/" ++ r)) →
      ∃ t, Util.addPath g.baseUrl p = t ++ "/" ++ q ∧ (g.baseUrl = t ∨ g.baseUrl = t ++ "/") := fun p q hp => addPath_joins g.baseUrl p q hp
  refine ⟨fun hat => ?_, fun hs => ?_, fun S hs hne hn => ?_, fun hs => ?_, fun p hp hne q hq => ?_, fun hj hk => ?_⟩
  · obtain ⟨ha, ht⟩ : (∃ s ∈ servicesOf g, s.name = "authorization") ∧ (∃ s ∈ servicesOf g, s.name = "accesstoken") := by
      unfold servicesOf
      cases hs : g.services with
      | none => exact ⟨⟨.authorization, by decide, rfl⟩, .accesstoken, by decide, rfl⟩
      | some S =>
        cases S with
        | nil => exact ⟨⟨.authorization, by decide, rfl⟩, .accesstoken, by decide, rfl⟩
        | cons a S => exact hat (a :: S) hs (by simp)
    have hao : c.ctx.addOn = [("pkce", .obj [("code_challenge_length", .int 64), ("code_challenge_method", .str "S256")])] := by
      rw [e4, default_assembled]
      unfold Entity.addPkce
      have hA := (has_init (servicesOf g) "authorization").2 ha
      have hT := (has_init (servicesOf g) "accesstoken").2 ht
      rw [Dict.has_eq] at hA hT
      obtain ⟨a, hA⟩ := Option.isSome_iff_exists.1 hA
      obtain ⟨t, hT⟩ := Option.isSome_iff_exists.1 hT
      rw [hA, hT]
      rfl
    unfold Pkce pkceMethod addOnConf
    rw [hao]
    exact ⟨rfl, rfl, rfl⟩
  · rw [e2]
    unfold servicesOf
    rw [hs]
    rfl
  · rw [e2]
    unfold servicesOf
    rw [hs, Option.getD_some, default_assembled]
    have : clientServices S = S := by
      unfold clientServices
      cases S with
      | nil => exact absurd rfl hne
      | cons a S => rfl
    rw [this]
    exact services_kept S hn
  · rw [e2]
    unfold servicesOf
    rw [hs]
    rfl
  · rw [e5]
    unfold newHandler jwksPathOf
    simp only [hp]
    rw [if_neg hne]
    exact haddPath p q hq
  · rw [e5]
    unfold newHandler jwksPathOf
    simp only [hj, hk]
    rw [if_neg (by decide)]
    obtain ⟨t, h1, h2⟩ := haddPath PUBLIC_PATH "static/jwks.json" (Or.inr ⟨rfl, fun ⟨r, hr⟩ => by
      have := congrArg (fun s => s.toList.head?) hr
      simp [PUBLIC_PATH] at this⟩)
    exact ⟨t, by rw [h1, String.append_assoc]; rfl, h2⟩

/-! ## Logins -/

theorem run_then (l l' : List (Ext × Call)) : ∀ h : Handler, run (l ++ l') h = run l' (run l h) := by
  induction l with
  | nil => intro h; rfl
  | cons xc l ih => intro h; exact ih _

theorem newHandler_new {g : Given} (hg : g.configs = none) : NewHandler (newHandler DEFAULT_CLIENT_CONFIG g) := by
  refine ⟨rfl, ⟨fun n cc hm => ?_, fun i c hm => by cases hm⟩⟩
  unfold newHandler at hm
  rw [hg] at hm
  simp only [Option.getD_none, defaultConfigs, List.mem_singleton, Prod.mk.injEq] at hm
  obtain ⟨_, rfl⟩ := hm
  intro o ho
  cases ho

theorem newHandler_oneName {g : Given} (hg : g.configs = none) (n : String) (cc : ClientConf)
    (hm : (n, cc) ∈ (newHandler DEFAULT_CLIENT_CONFIG g).configs) : OneName n cc := by
  unfold newHandler at hm
  rw [hg] at hm
  simp only [Option.getD_none, defaultConfigs, List.mem_singleton, Prod.mk.injEq] at hm
  obtain ⟨_, rfl⟩ := hm
  exact ⟨rfl, Or.inl rfl⟩

/-- **C127** (logins of a default handler).  A handler is made without configurations and services; any calls are made; `begin` returns `k`; any calls are
made, for this and other sessions and providers.  Then the client kept for the session has the authorization request that was made for `k`, with the S256
challenge of a verifier `v`, and if fetching the tokens of `k` sends anything, it is a token request that carries `v`. -/
theorem C127_login {K : String → Prop} (hK : KeySpace K) (g : Given) (hg : g.configs = none) (hs : g.services = none)
    (before : List (Ext × Call)) (x : Ext) (issuer user : String) (req b : Obj) (url k : String) (h1 : Handler)
    (hbefore : ∀ xc ∈ before, CallOk K k xc) (hkx : K (x.rnd "init_state"))
    (hbegin : begin_ x issuer user req b (run before (newHandler DEFAULT_CLIENT_CONFIG g)) = (.ok (url, k), h1))
    (i : String) (hsetup : (clientSetup x issuer user b (run before (newHandler DEFAULT_CLIENT_CONFIG g))).1 = .ok i) (hne : i ≠ "")
    (hx : PlainChallenge x) (hdef : (Dict.keys (x.msg .authorization).defaults).Nodup)
    (hv : x.rnd "code_verifier" ≠ "") (hch : ∀ m, x.challenge m (x.rnd "code_verifier") ≠ "")
    (after : List (Ext × Call)) (hafter : ∀ xc ∈ after, CallOk K k xc) (hkeep : NeverReplaced i after h1) :
    ∃ c2 v, Dict.get? (run after h1).issuer2rp i = some c2 ∧ Challenged x c2.db k "S256" v ∧
      ∀ y, PlainTokenRequest y →
        (getTokens y k c2).2.log = c2.log ∨
        ∃ s u r, (getTokens y k c2).2.log = c2.log ++ [s] ∧ s.srv = .accesstoken ∧
          Discovery.serviceEndpoint c2.ctx .accesstoken = .ok (.str u) ∧ Spec.Wire.Carries y s u r ∧
          Dict.get? r "code_verifier" = some (.str v) := by
  have hnew := newHandler_new hg
  have hk : K k := by
    obtain ⟨_, _, _, _, _, b3, _⟩ := begin_ok hbegin
    exact init_key b3 ▸ hkx
  have hi0 := inv_run hK hk before (inv_new hnew.empty hnew.plain) hbefore (fun _ _ _ hw => by cases hw)
  have hn0 : Handler.Named (run before (newHandler DEFAULT_CLIENT_CONFIG g)) :=
    named_run hK hk before (inv_new hnew.empty hnew.plain) ⟨newHandler_oneName hg, fun i c hm => by cases hm⟩ hbefore
  have hname := begun_named hK hkx hi0.plain hn0 hbegin i
  -- every client of the handler is a default one
  have hmade : ∀ (calls : List (Ext × Call)) n c, Dict.get? (run calls (newHandler DEFAULT_CLIENT_CONFIG g)).issuer2rp n = some c →
      c.ctx.addOn = [("pkce", .obj [("code_challenge_length", .int 64), ("code_challenge_method", .str "S256")])] := by
    intro calls n c hc
    obtain ⟨cc, e1, _, _, e4, _⟩ := (madeOf_run calls (madeOf_new hnew.empty)).clients n c hc
    rw [e4]
    unfold newHandler servicesOf at e1
    rw [hg, hs] at e1
    simp only [Option.getD_none, get?_default] at e1
    split at e1
    · injection e1 with e1; subst e1; rfl
    · cases e1
  have hrun1 : h1 = run (before ++ [(x, .begin issuer user req b)]) (newHandler DEFAULT_CLIENT_CONFIG g) := by
    rw [run_then]
    exact (congrArg Prod.snd hbegin).symm
  obtain ⟨c1, hc1⟩ : ∃ c1, Dict.get? h1.issuer2rp i = some c1 := by
    obtain ⟨c, c', a1, a2, a3, ⟨bh, a4⟩, a5⟩ := inv_begun hK hkx hi0 hbegin hsetup hne hname
    exact ⟨_, a4⟩
  have hpk1 : Pkce c1 := by
    unfold Pkce
    rw [hmade _ i c1 (hrun1 ▸ hc1)]
    rfl
  obtain ⟨c2, m, v, f1, f2, f3, f4⟩ := C21_verifier_matches hK _ hnew before x issuer user req b url k h1 hbefore hkx hbegin i hsetup hne
    hname c1 hc1 hpk1 hx hdef hv hch after hafter hkeep
  have hm : m = "S256" := by
    rw [f2]
    unfold pkceMethod addOnConf
    rw [hmade (before ++ [(x, .begin issuer user req b)] ++ after) i c2 (by rw [run_then, ← hrun1]; exact f1)]
    rfl
  subst hm
  exact ⟨c2, v, f1, f3, f4⟩

/-! ## What the full claims miss -/

/-- **C127** (logging out).  A handler made without configurations and services has no service for logging out at the provider: whatever happened, neither
`logout` nor `close` succeeds. -/
theorem C127_no_logout (l : List Event) (i : Nat) (g : Given) (h : Handler) (hi : (process l {}).handlers[i]? = some (g, h)) (hg : g.configs = none)
    (hs : g.services = none) (x : Ext) (state issuer uri : String) (r : Ret) :
    returned i x (.logout state uri) (process l {}) ≠ some (.ok r) ∧ returned i x (.close state issuer uri) (process l {}) ≠ some (.ok r) := by
  have hno : ∀ n c, Dict.get? h.issuer2rp n = some c → (logout x state uri c).1 = .error .attributeError := by
    intro n c hc
    have := (C127_made l i g h hi hg n c hc).2.1 hs
    unfold logout
    rw [Py.read_bind_run, this, if_pos (by decide)]
    rfl
  have hsee : (sees (process l {}).shared g h).issuer2rp = h.issuer2rp := by
    unfold sees
    split <;> rfl
  have hcl : ∀ j, ∃ e, (onClient j (logout x state uri) (sees (process l {}).shared g h)).1 = .error e := by
    intro j
    unfold onClient
    rw [hsee]
    cases hc : Dict.get? h.issuer2rp j with
    | none => exact ⟨_, rfl⟩
    | some c => exact ⟨_, hno j c hc⟩
  have hse : ∃ e, (onSession state (logout x state uri) (sees (process l {}).shared g h)).1 = .error e := by
    unfold onSession
    cases sessionIssuer (sees (process l {}).shared g h) state with
    | error e => exact ⟨_, rfl⟩
    | ok j => exact hcl j
  have hex : ∀ (m : Py Handler ReqInfo), (∃ e, (m (sees (process l {}).shared g h)).1 = .error e) →
      some (ret .req m (sees (process l {}).shared g h)).1 ≠ some (.ok r) := by
    rintro m ⟨e, he⟩ h'
    unfold ret at h'
    simp only [he] at h'
    cases h'
  unfold returned
  rw [hi]
  refine ⟨hex _ hse, hex (close x state issuer uri) ?_⟩
  unfold close
  split
  · exact hcl issuer
  · exact hse

/-- A handler made with a base URL only. -/
def bare : Given := { baseUrl := "https://rp.example" }

/-- One such handler starts a login, another is made and starts one. -/
def twoBare : List Event :=
  [.make bare, .call 0 (World.ext 1000 World.s1 "n1" "") (.begin "https://op.example" "" [] []), .make bare,
   .call 1 (World.ext 1001 World.s2 "n2" "") (.begin "https://op.example" "" [] [])]

set_option maxRecDepth 100000 in
/-- Non-vacuity of C127: both handlers keep a client with the default services and PKCE; the calls of the second one name the issuer. -/
example :
    ((process twoBare {}).handlers.map fun gh => (Dict.get? gh.2.issuer2rp "https://op.example").map fun c =>
      (c.services.length, pkceMethod c.ctx, c.ctx.jwksUri)) =
      [some (7, "S256", "https://rp.example/static/jwks.json"), some (7, "S256", "https://rp.example/static/jwks.json")] ∧
    (∀ xc ∈ callsOf 1 0 twoBare, bare.configs = none → NamesIssuer xc.2) ∧ (callsOf 1 0 twoBare).length = 1 := by
  refine ⟨by decide +kernel, fun xc hx _ => ?_, rfl⟩
  simp only [twoBare, callsOf] at hx
  simp at hx
  subst hx
  show "https://op.example" ≠ ""
  decide

set_option maxRecDepth 100000 in
/-- Non-vacuity of `C127_login`: such a handler starts a session, with a S256 challenge, and its token request carries the verifier. -/
example :
    (begin_ (World.ext 1000 World.s1 "n1" "") "https://op.example" "" [] [] (newHandler DEFAULT_CLIENT_CONFIG bare)).1.toOption.map Prod.snd =
      some World.s1 ∧
    (clientSetup (World.ext 1000 World.s1 "n1" "") "https://op.example" "" [] (newHandler DEFAULT_CLIENT_CONFIG bare)).1.toOption =
      some "https://op.example" ∧
    PlainChallenge (World.ext 1000 World.s1 "n1" "") ∧ (World.ext 1000 World.s1 "n1" "").rnd "code_verifier" ≠ "" ∧
    (Dict.get? (run [(World.ext 1000 World.s1 "n1" "", .begin "https://op.example" "" [] []),
        (World.ext 1001 "" "" "n1", .finalize "https://op.example" [("code", .str "code1"), ("state", .str World.s1)] [])]
      (newHandler DEFAULT_CLIENT_CONFIG bare)).issuer2rp "https://op.example").bind (fun c => (c.log[2]?).map (fun s =>
        (s.url, (match s.body with | some (.text t) => Str.endsWith t "&code_verifier=verifier-abcdefghijklmnopqrstuvwxyzABCDE1" | _ => false)))) =
      some ("https://op.example/token", true) := by
  refine ⟨by decide +kernel, by decide +kernel, by unfold PlainChallenge; decide, by decide, by decide +kernel⟩

/-- The WebFinger request of a user is refused. -/
def unknownUser : Ext :=
  answeredBy (fun s => if s.srv = .webfinger then some { status := 404, headers := [("content-type", "application/json")], text := "bad" } else none)

/-- Whether a call returned. -/
def succeeded : Option (Except Exc Ret) → Bool
  | some (.ok _) => true
  | _ => false

set_option maxRecDepth 100000 in
/-- Full claim fails: a second handler is made, and the login of a user is started whose WebFinger request is refused.  On its own the handler raises an
exception; after another handler of the process was used for a provider, it starts a login there, which has nothing to do with the user. -/
theorem C127_other_handlers_provider_violated :
    let other : List Event := [.make bare, .call 0 (World.ext 1000 World.s1 "n1" "") (.begin "https://op.example" "" [] []), .make bare]
    succeeded (returned 0 unknownUser (.begin "" "joe@other.example" [] []) (process [.make bare] {})) = false ∧
    succeeded (returned 1 unknownUser (.begin "" "joe@other.example" [] []) (process other {})) = true ∧
    (((process (other ++ [.call 1 unknownUser (.begin "" "joe@other.example" [] [])]) {}).handlers[1]?).map
      fun gh => Dict.keys gh.2.issuer2rp) = some ["https://op.example"] := by
  decide +kernel

set_option maxRecDepth 100000 in
/-- Full claim fails: logging out with a default handler is not refused with the exception that is meant for it (`OidcServiceError`, "Does not know how to
logout"), but with an `AttributeError`. -/
theorem C127_logout_exception_violated :
    (match returned 0 (World.ext 1002 "" "" "") (.logout World.s1 "") (process (twoBare.take 2) {}) with
      | some (.error e) => some e
      | _ => none) = some .attributeError := by
  decide +kernel

end Verif.Props
