import Verif.Lemmas.Named
/-!
# The set-up of a client stays
-/

namespace Verif
open StateInterface Service Handler
open Spec.InFlight

/-- Two states of a client with the same set-up: issuer, metadata, endpoints, credentials, configuration. -/
structure SameClient (c c' : Client) : Prop where
  ctx : SameSetup c.ctx c'.ctx
  services : c'.services = c.services
  conf : c'.conf = c.conf
  cfg : c'.cfg = c.cfg
  key : KeyKept c c'

instance : FrameRel SameClient where
  refl _ := ⟨SameSetup.refl _, rfl, rfl, rfl, fun _ => id⟩
  trans h h' := ⟨h.ctx.trans h'.ctx, h'.services.trans h.services, h'.conf.trans h.conf, h'.cfg.trans h.cfg, fun k hk => h'.key k (h.key k hk)⟩

theorem Local.sameClient {k : String} {c c' : Client} (h : Local k c c') : SameClient c c' :=
  ⟨by rw [h.ctx]; exact SameSetup.refl _, h.services, h.conf, h.cfg, h.key⟩

theorem Begins.sameClient {N : String → Prop} {k : String} {c c' : Client} (h : Begins N k c c') : SameClient c c' :=
  ⟨h.ctx, h.services, h.conf, h.cfg, h.key⟩

namespace Handler

/-- The handler keeps a client with the set-up of `c` as `i`. -/
def HasClient (i : String) (c : Client) (h : Handler) : Prop :=
  ∃ c', Dict.get? h.issuer2rp i = some c' ∧ SameClient c c'

variable {i : String} {c : Client} {h : Handler}

theorem hasClient_share (hh : HasClient i c h) (cfg : String) (b : Obj) : HasClient i c (share cfg b h) := by
  obtain ⟨c', h1, h2⟩ := hh
  unfold share
  split
  · exact ⟨c', h1, h2⟩
  · split
    · refine ⟨sharedClient cfg b c', ?_, ?_⟩
      · have hm : ∀ l : Dict Client, Dict.get? (l.map (fun p => (p.1, sharedClient cfg b p.2))) i =
            (Dict.get? l i).map (sharedClient cfg b) := fun l => Dict.get?_map _ _ _
        simp only [hm, h1, Option.map_some]
      · refine FrameRel.trans h2 ?_
        unfold sharedClient
        split
        · exact ⟨⟨b, rfl⟩, rfl, rfl, rfl, fun _ => id⟩
        · exact FrameRel.refl _
    · exact ⟨c', h1, h2⟩

theorem hasClient_set (hh : HasClient i c h) {j : String} {d : Client} (hd : j = i → SameClient c d) :
    HasClient i c { h with issuer2rp := Dict.set h.issuer2rp j d } := by
  obtain ⟨c', h1, h2⟩ := hh
  by_cases e : j = i
  · subst e
    exact ⟨d, Dict.get?_set_self _ _ _, hd rfl⟩
  · exact ⟨c', by simp only [Dict.get?_set_ne _ _ e]; exact h1, h2⟩

theorem hasClient_onClient {α : Type} {j : String} {m : Py Client α} (hh : HasClient i c h)
    (hm : ∀ d, Dict.get? h.issuer2rp j = some d → SameClient d (m d).2) : HasClient i c (onClient j m h).2 := by
  unfold onClient
  cases hj : Dict.get? h.issuer2rp j with
  | none => exact hh
  | some d =>
    refine hasClient_share (hasClient_set hh fun e => ?_) _ _
    subst e
    obtain ⟨c', h1, h2⟩ := hh
    rw [hj] at h1
    injection h1 with h1
    subst h1
    exact FrameRel.trans h2 (hm d hj)

theorem hasClient_onNew {α : Type} {d : Client} {m : Py Client α} (hh : HasClient i c h) : HasClient i c (onNew d m h).2 :=
  hasClient_share hh _ _

theorem hasClient_initClient (x : Ext) (issuer : String) (hh : HasClient i c h) : HasClient i c (initClient x issuer h).2 := by
  unfold initClient
  split
  · exact hh
  · split <;> exact hh

theorem hasClient_adopt (x : Ext) (d : Client) (issId : String) (b : Obj) (hh : HasClient i c h)
    (hn : (adopt x d issId b h).1 ≠ .ok i) : HasClient i c (adopt x d issId b h).2 := by
  unfold adopt at hn ⊢
  rw [Py.bind_run] at hn ⊢
  have h1 := hasClient_onNew (d := d) (m := doProviderInfo x) hh
  rcases hr : onNew d (doProviderInfo x) h with ⟨r, g1⟩
  rw [hr] at h1 hn
  cases r with
  | error e => exact h1
  | ok r =>
    simp only [Py.modify_bind_run] at hn ⊢
    rw [Py.bind_run] at hn ⊢
    have h2 : HasClient i c { g1 with hash2issuer := Dict.set g1.hash2issuer issId r.2.ctx.issuer } := h1
    have h3 := hasClient_onNew (d := r.2) (m := register x b) h2
    rcases hs : onNew r.2 (register x b) { g1 with hash2issuer := Dict.set g1.hash2issuer issId r.2.ctx.issuer } with ⟨s, g2⟩
    rw [hs] at h3 hn
    cases s with
    | error e => exact h3
    | ok s =>
      simp only [Py.modify_bind_run, Py.pure_run] at hn ⊢
      refine hasClient_set h3 fun e => ?_
      subst e
      exact absurd rfl hn

theorem hasClient_setup (x : Ext) (issId user : String) (b : Obj) (hh : HasClient i c h)
    (hn : (clientSetup x issId user b h).1 = .ok i → issId = i) : HasClient i c (clientSetup x issId user b h).2 := by
  unfold clientSetup at hn ⊢
  split
  · exact hh
  · split
    · next h0 hi =>
      rw [if_neg h0, if_pos hi] at hn
      unfold doWebfinger at hn ⊢
      rw [Py.bind_run, Py.bind_run] at hn ⊢
      have h1 := hasClient_initClient x "" hh
      rcases hr : initClient x "" h with ⟨r, g1⟩
      rw [hr] at h1 hn
      cases r with
      | error e => exact h1
      | ok d =>
        simp only at hn ⊢
        rw [Py.bind_run] at hn ⊢
        have h2 := hasClient_onNew (d := d) (m := doRequest x .webfinger [] {} [("resource", .str user)]) h1
        rcases hr2 : onNew d (doRequest x .webfinger [] {} [("resource", .str user)]) g1 with ⟨r2, g2⟩
        rw [hr2] at h2 hn
        cases r2 with
        | error e => exact h2
        | ok r2 =>
          simp only [Py.pure_run, Py.read_bind_run] at hn ⊢
          split
          · exact h2
          · next hnot =>
            rw [if_neg hnot] at hn
            refine hasClient_adopt _ _ _ _ h2 fun e => ?_
            have e1 := hn e
            obtain ⟨c', h5, _⟩ := h2
            apply hnot
            rw [e1, Dict.has_eq, h5]
            rfl
    · next h0 hi =>
      rw [if_neg h0, if_neg hi] at hn
      rw [Py.read_bind_run] at hn ⊢
      split
      · exact hh
      · next hnot =>
        rw [if_neg hnot, Py.bind_run] at hn
        rw [Py.bind_run]
        have h1 := hasClient_initClient x issId hh
        rcases hr : initClient x issId h with ⟨r, g1⟩
        rw [hr] at h1 hn
        cases r with
        | error e => exact h1
        | ok d =>
          refine hasClient_adopt _ _ _ _ h1 fun e => ?_
          have e1 := hn e
          obtain ⟨c', h5, _⟩ := hh
          apply hnot
          rw [e1, Dict.has_eq, h5]
          rfl

theorem hasClient_session {α : Type} (hh : HasClient i c h) {s k : String} {m : Py Client α}
    (hm : Frame (Local k) m) : HasClient i c (onSession s m h).2 := by
  unfold onSession
  cases hr : sessionIssuer h s with
  | error e => exact hh
  | ok j => exact hasClient_onClient hh fun d _ => (hm d).sameClient

/-- Like `finalizeClient_ctx`, for all of the set-up. -/
theorem finalizeClient_setup (x : Ext) (issuer : String) (response b : Obj) (c : Client) :
    SameClient c (finalizeClient x issuer response b c).2 := by
  have hf : Frame SameClient (finalizeClient x issuer response b) := by
    unfold finalizeClient
    refine Frame.bind ?_ fun resp => ?_
    · intro c
      rcases finalizeAuth_cases x issuer response c with ⟨e, he⟩ | ⟨resp, _, _, ⟨hie, hf⟩ | ⟨hie, κ, st, resp', k1, k2, k3, k4, hf⟩⟩
      · rw [he]; exact FrameRel.refl _
      · rw [hf]; exact FrameRel.refl _
      · rw [hf]; exact ⟨SameSetup.refl _, rfl, rfl, rfl, fun _ => id⟩
    · refine Frame.bind (Frame.lift _) fun sv => ?_
      refine Frame.ite (fun _ => Frame.bind (Frame.lift _) fun _ => Frame.pure _) (fun _ => ?_)
      refine Frame.bind (Frame.lift _) fun k => ?_
      intro c
      exact (local_finalizeTokens x resp k b c).sameClient
  exact hf c

/-- Every call keeps the set-up of a client that is not replaced. -/
theorem hasClient_exec (hp : PlainHandler h) (hh : HasClient i c h)
    (xc : Ext × Call) (hc : StateDrawn xc) (hn : NotReplaced i h xc) : HasClient i c (exec xc.1 xc.2 h).2 := by
  obtain ⟨x, call⟩ := xc
  cases call with
  | begin issId user req b =>
    show HasClient i c (begin_ x issId user req b h).2
    unfold begin_
    rw [Py.bind_run]
    have h0 := hasClient_setup x issId user b hh hn
    have hp0 := (clientSetup_cases x issId user b hp).1
    rcases hs : clientSetup x issId user b h with ⟨r, h1⟩
    rw [hs] at h0 hp0
    cases r with
    | error e => exact h0
    | ok j =>
      simp only
      refine hasClient_onClient h0 fun d hd => ?_
      exact (begins_init x req b hc d (hp0.clients j d (Dict.get?_eq_some_mem hd))).sameClient
  | finalize j r b =>
    exact hasClient_onClient hh (j := j) (m := finalizeClient x j r b) fun d _ => finalizeClient_setup x j r b d
  | getTokens s => exact hasClient_session hh (local_getTokens x s)
  | refresh s sc => exact hasClient_session hh (local_refresh x s sc)
  | userInfo s t => exact hasClient_session hh (local_userInfo x s t)
  | hasActive s => exact hasClient_session hh (s := s) (k := s) (m := ask (hasActive x s)) (Frame.ask _)
  | validToken s => exact hasClient_session hh (s := s) (k := s) (m := ask (validAccessToken x s)) (Frame.ask _)
  | logout s u => exact hasClient_session hh (local_logout x s u)
  | close s j u =>
    show HasClient i c (close x s j u h).2
    unfold close
    split
    · exact hasClient_onClient hh fun d _ => (local_logout x s u d).sameClient
    · exact hasClient_session hh (local_logout x s u)
  | clear s =>
    show HasClient i c (clearSession s h).2
    unfold clearSession onSession
    cases hr : sessionIssuer h s with
    | error e => exact hh
    | ok j => exact hasClient_onClient hh fun d _ => ⟨SameSetup.refl _, rfl, rfl, rfl, fun _ => id⟩
  | backchannel j info => exact hasClient_onClient hh (j := j) (m := ask (backchannelLogout x info)) fun d _ => FrameRel.refl _

/-- Every call keeps plain configurations plain. -/
theorem plain_exec (hp : PlainHandler h) (xc : Ext × Call) (hc : StateDrawn xc) : PlainHandler (exec xc.1 xc.2 h).2 := by
  have hsess : ∀ {α : Type} {s k : String} {m : Py Client α}, Frame (Local k) m → PlainHandler (onSession s m h).2 := by
    intro α s k m hm
    unfold onSession
    cases hr : sessionIssuer h s with
    | error e => exact hp
    | ok j => exact plain_onClient hp fun d _ => (hm d).conf
  obtain ⟨x, call⟩ := xc
  cases call with
  | begin issId user req b =>
    show PlainHandler (begin_ x issId user req b h).2
    unfold begin_
    rw [Py.bind_run]
    have hp0 := (clientSetup_cases x issId user b hp).1
    rcases hs : clientSetup x issId user b h with ⟨r, h1⟩
    rw [hs] at hp0
    cases r with
    | error e => exact hp0
    | ok j =>
      simp only
      exact plain_onClient hp0 fun d hd => (begins_init x req b hc d (hp0.clients j d (Dict.get?_eq_some_mem hd))).conf
  | finalize j r b =>
    exact plain_onClient hp (i := j) (m := finalizeClient x j r b) fun d _ => (finalizeClient_setup x j r b d).conf
  | getTokens s => exact hsess (local_getTokens x s)
  | refresh s sc => exact hsess (local_refresh x s sc)
  | userInfo s t => exact hsess (local_userInfo x s t)
  | hasActive s => exact hsess (s := s) (k := s) (m := ask (hasActive x s)) (Frame.ask _)
  | validToken s => exact hsess (s := s) (k := s) (m := ask (validAccessToken x s)) (Frame.ask _)
  | logout s u => exact hsess (local_logout x s u)
  | close s j u =>
    show PlainHandler (close x s j u h).2
    unfold close
    split
    · exact plain_onClient hp fun d _ => (local_logout x s u d).conf
    · exact hsess (local_logout x s u)
  | clear s =>
    show PlainHandler (clearSession s h).2
    unfold clearSession onSession
    cases hr : sessionIssuer h s with
    | error e => exact hp
    | ok j => exact plain_onClient hp fun d _ => rfl
  | backchannel j info => exact plain_onClient hp (i := j) (m := ask (backchannelLogout x info)) fun d _ => rfl

/-- Every history keeps the set-up of a client that is not replaced. -/
theorem hasClient_run : ∀ (l : List (Ext × Call)) {h : Handler}, PlainHandler h → HasClient i c h → (∀ xc ∈ l, StateDrawn xc) →
      NeverReplaced i l h → HasClient i c (run l h) := by
  intro l
  induction l with
  | nil => intro h _ hn _ _; exact hn
  | cons xc l ih =>
    intro h hi hh hc hn
    exact ih (plain_exec hi xc (hc xc (by simp))) (hasClient_exec hi hh xc (hc xc (by simp)) hn.1)
      (fun y hy => hc y (by simp [hy])) hn.2

/-- Every history keeps plain configurations plain. -/
theorem plain_run : ∀ (l : List (Ext × Call)) {h : Handler}, PlainHandler h → (∀ xc ∈ l, StateDrawn xc) → PlainHandler (run l h) := by
  intro l
  induction l with
  | nil => intro h hn _; exact hn
  | cons xc l ih =>
    intro h hi hc
    exact ih (plain_exec hi xc (hc xc (by simp))) (fun y hy => hc y (by simp [hy]))

theorem drawn_of_ok {K : String → Prop} (hK : Spec.Store.KeySpace K) {k : String} {xc : Ext × Call} (h : CallOk K k xc) : StateDrawn xc := by
  obtain ⟨x, call⟩ := xc
  cases call <;> first | trivial | exact hK.nonempty _ h.1

end Handler
end Verif
