import Verif.Model.Defaults
import Verif.Lemmas.Made
/-!
# Handlers that use the default configuration of the process
-/

namespace Verif.Defaults
open Verif Handler Entity Service

/-- What `DEFAULT_CLIENT_CONFIGS['']` may hold. -/
def Held (o : Obj) : Prop := o = DEFAULT_CLIENT_CONFIG ∨ ∃ v, o = Dict.set DEFAULT_CLIENT_CONFIG "issuer" (.str v)

/-- It, as a handler with the services `S` uses it. -/
def Family (S : List Srv) (C : Dict ClientConf) : Prop := ∃ o, Held o ∧ C = defaultConfigs o S

theorem Held.set {o : Obj} (h : Held o) (v : String) :
    Dict.set o "issuer" (.str v) = Dict.set DEFAULT_CLIENT_CONFIG "issuer" (.str v) := by
  rcases h with rfl | ⟨w, rfl⟩
  · rfl
  · rfl

theorem Held.behaviour {o : Obj} (h : Held o) : Dict.has o "behaviour" = false := by
  rcases h with rfl | ⟨w, rfl⟩
  · rfl
  · rfl

theorem defaultConf_config (o : Obj) (S : List Srv) : (defaultConf o S).config = o := rfl

theorem defaultConf_with (o o' : Obj) (S : List Srv) : { defaultConf o S with config := o' } = defaultConf o' S := rfl

theorem get?_default (o : Obj) (S : List Srv) (i : String) :
    Dict.get? (defaultConfigs o S) i = if i = "" then some (defaultConf o S) else none := by
  unfold defaultConfigs
  rw [Dict.get?_cons]
  by_cases h : i = ""
  · subst h; rfl
  · have : ¬ "" = i := fun e => h e.symm
    simp [h, this]

theorem share_default {S : List Srv} {h : Handler} (hf : Family S h.configs) (cfg : String) (b : Obj) : share cfg b h = h := by
  obtain ⟨o, ho, e⟩ := hf
  unfold share
  rw [e, get?_default]
  by_cases hc : cfg = ""
  · subst hc
    simp [defaultConf_config, ho.behaviour]
  · simp [hc]

/-- `h` with other configurations. -/
abbrev withConfigs (C : Dict ClientConf) (h : Handler) : Handler := { h with configs := C }

variable {S : List Srv} {C : Dict ClientConf} {h : Handler}

/-- A computation does not look at which of the configurations are there. -/
def Blind (S : List Srv) {α : Type} (m : Py Handler α) (h : Handler) : Prop :=
  ∀ C, Family S C → (m (withConfigs C h)).1 = (m h).1 ∧ ∃ D, Family S D ∧ (m (withConfigs C h)).2 = withConfigs D (m h).2

/-- A computation leaves such configurations. -/
def Leaves (S : List Srv) {α : Type} (m : Py Handler α) (h : Handler) : Prop := Family S (m h).2.configs

theorem blind_onClient {α : Type} {j : String} {m : Py Client α} (hf : Family S h.configs) : Blind S (onClient j m) h := by
  intro C hC
  unfold onClient
  simp only
  cases Dict.get? h.issuer2rp j with
  | none => exact ⟨rfl, C, hC, rfl⟩
  | some c =>
    refine ⟨rfl, C, hC, ?_⟩
    simp only
    rw [share_default (S := S) (by exact hC), share_default (S := S) (by exact hf)]

theorem leaves_onClient {α : Type} {j : String} {m : Py Client α} (hf : Family S h.configs) : Leaves S (onClient j m) h := by
  unfold Leaves onClient
  cases Dict.get? h.issuer2rp j with
  | none => exact hf
  | some c =>
    simp only
    rw [share_default (S := S) (by exact hf)]
    exact hf

theorem blind_onSession {α : Type} {s : String} {m : Py Client α} (hf : Family S h.configs) : Blind S (onSession s m) h := by
  intro C hC
  unfold onSession
  have e : sessionIssuer (withConfigs C h) s = sessionIssuer h s := rfl
  rw [e]
  cases sessionIssuer h s with
  | error e => exact ⟨rfl, C, hC, rfl⟩
  | ok j => exact blind_onClient hf C hC

theorem leaves_onSession {α : Type} {s : String} {m : Py Client α} (hf : Family S h.configs) : Leaves S (onSession s m) h := by
  unfold Leaves onSession
  cases sessionIssuer h s with
  | error e => exact hf
  | ok j => exact leaves_onClient hf

theorem leaves_initClient (x : Ext) (i : String) (hf : Family S h.configs) : Leaves S (initClient x i) h := by
  obtain ⟨o, ho, e⟩ := hf
  unfold Leaves initClient
  rw [e, get?_default, get?_default]
  by_cases hi : i = ""
  · rw [if_pos hi]; exact ⟨o, ho, e⟩
  · rw [if_neg hi, if_pos rfl]
    refine ⟨Dict.set o "issuer" (.str i), ?_, rfl⟩
    rw [ho.set]
    exact Or.inr ⟨i, rfl⟩

theorem leaves_onNew {α : Type} {d : Client} {m : Py Client α} (hf : Family S h.configs) : Leaves S (onNew d m) h := by
  unfold Leaves onNew
  rw [share_default (S := S) (by exact hf)]
  exact hf

theorem leaves_adopt (x : Ext) (d : Client) (i : String) (b : Obj) (hf : Family S h.configs) : Leaves S (adopt x d i b) h := by
  unfold Leaves adopt
  rw [Py.bind_run]
  have h1 := leaves_onNew (d := d) (m := doProviderInfo x) hf
  unfold Leaves at h1
  rcases hr : onNew d (doProviderInfo x) h with ⟨r, g1⟩
  rw [hr] at h1
  cases r with
  | error e => exact h1
  | ok r =>
    simp only [Py.modify_bind_run]
    rw [Py.bind_run]
    have h3 := leaves_onNew (h := { g1 with hash2issuer := Dict.set g1.hash2issuer i r.2.ctx.issuer }) (d := r.2)
      (m := register x b) h1
    unfold Leaves at h3
    rcases hs : onNew r.2 (register x b) { g1 with hash2issuer := Dict.set g1.hash2issuer i r.2.ctx.issuer } with ⟨s, g2⟩
    rw [hs] at h3
    cases s with
    | error e => exact h3
    | ok s =>
      simp only [Py.modify_bind_run, Py.pure_run]
      exact h3

theorem leaves_setup (x : Ext) (i u : String) (b : Obj) (hf : Family S h.configs) : Leaves S (clientSetup x i u b) h := by
  unfold Leaves clientSetup
  split
  · exact hf
  · split
    · unfold doWebfinger
      rw [Py.bind_run, Py.bind_run]
      have h1 := leaves_initClient x "" hf
      unfold Leaves at h1
      rcases hr : initClient x "" h with ⟨r, g1⟩
      rw [hr] at h1
      cases r with
      | error e => exact h1
      | ok d =>
        simp only
        rw [Py.bind_run]
        have h2 := leaves_onNew (d := d) (m := Service.doRequest x .webfinger [] {} [("resource", .str u)]) h1
        unfold Leaves at h2
        rcases hr2 : onNew d (Service.doRequest x .webfinger [] {} [("resource", .str u)]) g1 with ⟨r2, g2⟩
        rw [hr2] at h2
        cases r2 with
        | error e => exact h2
        | ok r2 =>
          simp only [Py.pure_run, Py.read_bind_run]
          split
          · exact h2
          · exact leaves_adopt _ _ _ _ h2
    · rw [Py.read_bind_run]
      split
      · exact hf
      · rw [Py.bind_run]
        have h1 := leaves_initClient x i hf
        unfold Leaves at h1
        rcases hr : initClient x i h with ⟨r, g1⟩
        rw [hr] at h1
        cases r with
        | error e => exact h1
        | ok d => exact leaves_adopt _ _ _ _ h1

/-- Making a client for a named issuer. -/
theorem same_initClient (x : Ext) {i : String} (hi : i ≠ "") (hf : Family S h.configs) (hC : Family S C) :
    initClient x i (withConfigs C h) = initClient x i h := by
  obtain ⟨o, ho, e⟩ := hf
  obtain ⟨o', ho', e'⟩ := hC
  unfold initClient
  simp only [e, e', get?_default, if_neg hi, if_true, defaultConf_config, defaultConf_with]
  rw [ho.set, ho'.set]
  rfl

theorem blind_setup (x : Ext) {i : String} (hi : i ≠ "") (u : String) (b : Obj) (hf : Family S h.configs) :
    Blind S (clientSetup x i u b) h := by
  intro C hC
  unfold clientSetup
  rw [if_neg (fun e => hi e.1), if_neg hi, Py.read_bind_run, Py.read_bind_run]
  split
  · exact ⟨rfl, C, hC, rfl⟩
  · rw [Py.bind_run, Py.bind_run, same_initClient x hi hf hC]
    refine ⟨rfl, ?_⟩
    have h1 := leaves_initClient x i hf
    unfold Leaves at h1
    rcases hr : initClient x i h with ⟨r, g1⟩
    rw [hr] at h1
    cases r with
    | error e => exact ⟨_, h1, rfl⟩
    | ok d => exact ⟨_, leaves_adopt _ _ _ _ h1, rfl⟩

/-- If the call starts a login, it names the issuer. -/
def NamesIssuer : Call → Prop
  | .begin issuer _ _ _ => issuer ≠ ""
  | _ => True

theorem leaves_exec (xc : Ext × Call) (hf : Family S h.configs) : Leaves S (exec xc.1 xc.2) h := by
  obtain ⟨x, call⟩ := xc
  cases call with
  | begin i u r b =>
    show Family S (begin_ x i u r b h).2.configs
    unfold begin_
    rw [Py.bind_run]
    have h0 := leaves_setup x i u b hf
    unfold Leaves at h0
    rcases hs : clientSetup x i u b h with ⟨q, h1⟩
    rw [hs] at h0
    cases q with
    | error e => exact h0
    | ok j => exact leaves_onClient h0
  | finalize j r b => exact leaves_onClient hf (j := j) (m := finalizeClient x j r b)
  | getTokens s => exact leaves_onSession hf (m := getTokens x s)
  | refresh s sc => exact leaves_onSession hf (m := refreshAccessToken x s sc)
  | userInfo s t => exact leaves_onSession hf (m := getUserInfo x s t)
  | hasActive s => exact leaves_onSession hf (m := ask (hasActive x s))
  | validToken s => exact leaves_onSession hf (m := ask (validAccessToken x s))
  | logout s u => exact leaves_onSession hf (m := logout x s u)
  | close s j u =>
    show Family S (close x s j u h).2.configs
    unfold close
    split
    · exact leaves_onClient hf
    · exact leaves_onSession hf
  | clear s => exact leaves_onSession hf (m := onDB (StateInterface.removeState s))
  | backchannel j info => exact leaves_onClient hf (m := ask (backchannelLogout x info))

theorem blind_ret {α : Type} (f : α → Ret) {m : Py Handler α} (hb : Blind S m h) : Blind S (ret f m) h := by
  intro C hC
  obtain ⟨e, D, hD, e2⟩ := hb C hC
  exact ⟨congrArg (Except.map f) e, D, hD, e2⟩

/-- Every call but the start of a login by a user. -/
theorem blind_exec (x : Ext) (call : Call) (hn : NamesIssuer call) (hf : Family S h.configs) : Blind S (exec x call) h := by
  cases call with
  | begin i u r b =>
    refine blind_ret _ (m := begin_ x i u r b) fun C hC => ?_
    unfold begin_
    rw [Py.bind_run, Py.bind_run]
    obtain ⟨e1, D, hD, e2⟩ := blind_setup x hn u b hf C hC
    have h0 := leaves_setup x i u b hf
    unfold Leaves at h0
    rcases hs : clientSetup x i u b h with ⟨q, h1⟩
    rcases hs' : clientSetup x i u b (withConfigs C h) with ⟨q', h1'⟩
    rw [hs, hs'] at e1 e2
    rw [hs] at h0
    simp only at e1 e2
    subst e1 e2
    cases q' with
    | error e => exact ⟨rfl, D, hD, rfl⟩
    | ok j => exact blind_onClient h0 D hD
  | finalize j r b => exact blind_ret _ (blind_onClient hf (j := j) (m := finalizeClient x j r b))
  | getTokens s => exact blind_ret _ (blind_onSession hf (m := getTokens x s))
  | refresh s sc => exact blind_ret _ (blind_onSession hf (m := refreshAccessToken x s sc))
  | userInfo s t => exact blind_ret _ (blind_onSession hf (m := getUserInfo x s t))
  | hasActive s => exact blind_ret _ (blind_onSession hf (m := ask (hasActive x s)))
  | validToken s => exact blind_ret _ (blind_onSession hf (m := ask (validAccessToken x s)))
  | logout s u => exact blind_ret _ (blind_onSession hf (m := logout x s u))
  | close s j u =>
    refine blind_ret _ (m := close x s j u) ?_
    unfold close
    split
    · exact blind_onClient hf
    · exact blind_onSession hf
  | clear s => exact blind_ret _ (blind_onSession hf (m := onDB (StateInterface.removeState s)))
  | backchannel j info => exact blind_ret _ (blind_onClient hf (m := ask (backchannelLogout x info)))

end Verif.Defaults
