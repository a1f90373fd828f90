import Verif.Lemmas.Setup
/-!
# Relations that every call respects hold of every history
-/

namespace Verif
open StateInterface Service Handler
open Spec.InFlight

namespace Handler

/-- A relation that changing the `behaviour` of a client respects. -/
class ShareRel (R : Client → Client → Prop) : Prop extends FrameRel R where
  share : ∀ cfg b c, R c (sharedClient cfg b c)

/-- The handler keeps a client in the given relation to `c` as `i`. -/
def HasRel (R : Client → Client → Prop) (i : String) (c : Client) (h : Handler) : Prop :=
  ∃ c', Dict.get? h.issuer2rp i = some c' ∧ R c c'

variable {R : Client → Client → Prop} [ShareRel R] {i : String} {c : Client} {h : Handler}

theorem hasRel_share (hh : HasRel R i c h) (cfg : String) (b : Obj) : HasRel R i c (share cfg b h) := by
  obtain ⟨c', h1, h2⟩ := hh
  unfold share
  split
  · exact ⟨c', h1, h2⟩
  · split
    · refine ⟨sharedClient cfg b c', ?_, ?_⟩
      · have hm : ∀ l : Dict Client, Dict.get? (l.map (fun p => (p.1, sharedClient cfg b p.2))) i =
            (Dict.get? l i).map (sharedClient cfg b) := fun l => Dict.get?_map _ _ _
        simp only [hm, h1, Option.map_some]
      · refine FrameRel.trans h2 ?_
        exact ShareRel.share cfg b c'
    · exact ⟨c', h1, h2⟩

theorem hasRel_set (hh : HasRel R i c h) {j : String} {d : Client} (hd : j = i → R c d) :
    HasRel R i c { h with issuer2rp := Dict.set h.issuer2rp j d } := by
  obtain ⟨c', h1, h2⟩ := hh
  by_cases e : j = i
  · subst e
    exact ⟨d, Dict.get?_set_self _ _ _, hd rfl⟩
  · exact ⟨c', by simp only [Dict.get?_set_ne _ _ e]; exact h1, h2⟩

theorem hasRel_onClient {α : Type} {j : String} {m : Py Client α} (hh : HasRel R i c h)
    (hm : ∀ d, Dict.get? h.issuer2rp j = some d → R d (m d).2) : HasRel R i c (onClient j m h).2 := by
  unfold onClient
  cases hj : Dict.get? h.issuer2rp j with
  | none => exact hh
  | some d =>
    refine hasRel_share (hasRel_set hh fun e => ?_) _ _
    subst e
    obtain ⟨c', h1, h2⟩ := hh
    rw [hj] at h1
    injection h1 with h1
    subst h1
    exact FrameRel.trans h2 (hm d hj)

theorem hasRel_onNew {α : Type} {d : Client} {m : Py Client α} (hh : HasRel R i c h) : HasRel R i c (onNew d m h).2 :=
  hasRel_share hh _ _

theorem hasRel_initClient (x : Ext) (issuer : String) (hh : HasRel R i c h) : HasRel R i c (initClient x issuer h).2 := by
  unfold initClient
  split
  · exact hh
  · split <;> exact hh

theorem hasRel_adopt (x : Ext) (d : Client) (issId : String) (b : Obj) (hh : HasRel R i c h)
    (hn : (adopt x d issId b h).1 ≠ .ok i) : HasRel R i c (adopt x d issId b h).2 := by
  unfold adopt at hn ⊢
  rw [Py.bind_run] at hn ⊢
  have h1 := hasRel_onNew (d := d) (m := doProviderInfo x) hh
  rcases hr : onNew d (doProviderInfo x) h with ⟨r, g1⟩
  rw [hr] at h1 hn
  cases r with
  | error e => exact h1
  | ok r =>
    simp only [Py.modify_bind_run] at hn ⊢
    rw [Py.bind_run] at hn ⊢
    have h2 : HasRel R i c { g1 with hash2issuer := Dict.set g1.hash2issuer issId r.2.ctx.issuer } := h1
    have h3 := hasRel_onNew (d := r.2) (m := register x b) h2
    rcases hs : onNew r.2 (register x b) { g1 with hash2issuer := Dict.set g1.hash2issuer issId r.2.ctx.issuer } with ⟨s, g2⟩
    rw [hs] at h3 hn
    cases s with
    | error e => exact h3
    | ok s =>
      simp only [Py.modify_bind_run, Py.pure_run] at hn ⊢
      refine hasRel_set h3 fun e => ?_
      subst e
      exact absurd rfl hn

theorem hasRel_setup (x : Ext) (issId user : String) (b : Obj) (hh : HasRel R i c h)
    (hn : (clientSetup x issId user b h).1 = .ok i → issId = i) : HasRel R i c (clientSetup x issId user b h).2 := by
  unfold clientSetup at hn ⊢
  split
  · exact hh
  · split
    · next h0 hi =>
      rw [if_neg h0, if_pos hi] at hn
      unfold doWebfinger at hn ⊢
      rw [Py.bind_run, Py.bind_run] at hn ⊢
      have h1 := hasRel_initClient x "" hh
      rcases hr : initClient x "" h with ⟨r, g1⟩
      rw [hr] at h1 hn
      cases r with
      | error e => exact h1
      | ok d =>
        simp only at hn ⊢
        rw [Py.bind_run] at hn ⊢
        have h2 := hasRel_onNew (d := d) (m := doRequest x .webfinger [] {} [("resource", .str user)]) h1
        rcases hr2 : onNew d (doRequest x .webfinger [] {} [("resource", .str user)]) g1 with ⟨r2, g2⟩
        rw [hr2] at h2 hn
        cases r2 with
        | error e => exact h2
        | ok r2 =>
          simp only [Py.pure_run, Py.read_bind_run] at hn ⊢
          split
          · exact h2
          · next hnot =>
            rw [if_neg hnot] at hn
            refine hasRel_adopt _ _ _ _ h2 fun e => ?_
            have e1 := hn e
            obtain ⟨c', h5, _⟩ := h2
            apply hnot
            rw [e1, Dict.has_eq, h5]
            rfl
    · next h0 hi =>
      rw [if_neg h0, if_neg hi] at hn
      rw [Py.read_bind_run] at hn ⊢
      split
      · exact hh
      · next hnot =>
        rw [if_neg hnot, Py.bind_run] at hn
        rw [Py.bind_run]
        have h1 := hasRel_initClient x issId hh
        rcases hr : initClient x issId h with ⟨r, g1⟩
        rw [hr] at h1 hn
        cases r with
        | error e => exact h1
        | ok d =>
          refine hasRel_adopt _ _ _ _ h1 fun e => ?_
          have e1 := hn e
          obtain ⟨c', h5, _⟩ := hh
          apply hnot
          rw [e1, Dict.has_eq, h5]
          rfl


/-- The calls of a client made in the circumstances `X` respect a relation. -/
structure Respects (X : Ext → Prop) (R : Client → Client → Prop) : Prop where
  init : ∀ x req b c, X x → x.rnd "init_state" ≠ "" → PlainConf c.conf → R c (initAuthorization x req b c).2
  finalize : ∀ x issuer response b c, X x → R c (finalizeClient x issuer response b c).2
  tokens : ∀ x k c, X x → R c (getTokens x k c).2
  refresh : ∀ x k sc c, X x → R c (refreshAccessToken x k sc c).2
  userInfo : ∀ x k t c, X x → R c (getUserInfo x k t c).2
  logout : ∀ x k u c, X x → R c (Handler.logout x k u c).2
  clear : ∀ k c, R c (onDB (removeState k) c).2

theorem hasRel_session {α : Type} (hh : HasRel R i c h) {s : String} {m : Py Client α}
    (hm : ∀ d, R d (m d).2) : HasRel R i c (onSession s m h).2 := by
  unfold onSession
  cases hr : sessionIssuer h s with
  | error e => exact hh
  | ok j => exact hasRel_onClient hh fun d _ => hm d

theorem hasRel_exec {X : Ext → Prop} (hr : Respects X R) (hp : PlainHandler h) (hh : HasRel R i c h)
    (xc : Ext × Call) (hx : X xc.1) (hc : StateDrawn xc) (hn : NotReplaced i h xc) : HasRel R i c (exec xc.1 xc.2 h).2 := by
  obtain ⟨x, call⟩ := xc
  cases call with
  | begin issId user req b =>
    show HasRel R i c (begin_ x issId user req b h).2
    unfold begin_
    rw [Py.bind_run]
    have h0 := hasRel_setup x issId user b hh hn
    have hp0 := (clientSetup_cases x issId user b hp).1
    rcases hs : clientSetup x issId user b h with ⟨r, h1⟩
    rw [hs] at h0 hp0
    cases r with
    | error e => exact h0
    | ok j =>
      simp only
      exact hasRel_onClient h0 fun d hd => hr.init x req b d hx hc (hp0.clients j d (Dict.get?_eq_some_mem hd))
  | finalize j r b =>
    exact hasRel_onClient hh (j := j) (m := finalizeClient x j r b) fun d _ => hr.finalize x j r b d hx
  | getTokens s => exact hasRel_session hh fun d => hr.tokens x s d hx
  | refresh s sc => exact hasRel_session hh fun d => hr.refresh x s sc d hx
  | userInfo s t => exact hasRel_session hh fun d => hr.userInfo x s t d hx
  | hasActive s => exact hasRel_session hh (s := s) (m := ask (hasActive x s)) (Frame.ask _)
  | validToken s => exact hasRel_session hh (s := s) (m := ask (validAccessToken x s)) (Frame.ask _)
  | logout s u => exact hasRel_session hh fun d => hr.logout x s u d hx
  | close s j u =>
    show HasRel R i c (close x s j u h).2
    unfold close
    split
    · exact hasRel_onClient hh fun d _ => hr.logout x s u d hx
    · exact hasRel_session hh fun d => hr.logout x s u d hx
  | clear s => exact hasRel_session hh fun d => hr.clear s d
  | backchannel j info => exact hasRel_onClient hh (j := j) (m := ask (backchannelLogout x info)) fun d _ => FrameRel.refl _

/-- A relation that the calls respect holds of a client after every history in which it is not replaced. -/
theorem hasRel_run {X : Ext → Prop} (hr : Respects X R) : ∀ (l : List (Ext × Call)) {h : Handler}, PlainHandler h → HasRel R i c h →
      (∀ xc ∈ l, X xc.1) → (∀ xc ∈ l, StateDrawn xc) → NeverReplaced i l h → HasRel R i c (run l h) := by
  intro l
  induction l with
  | nil => intro h _ hn _ _ _; exact hn
  | cons xc l ih =>
    intro h hi hh hx hc hn
    exact ih (plain_exec hi xc (hc xc (by simp))) (hasRel_exec hr hi hh xc (hx xc (by simp)) (hc xc (by simp)) hn.1)
      (fun y hy => hx y (by simp [hy])) (fun y hy => hc y (by simp [hy])) hn.2

end Handler
end Verif
