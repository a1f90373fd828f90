import Verif.Props.NewClient
import Verif.Lemmas.Made
import Verif.Lemmas.World
/-!
# Whose keys a client holds (C103)
-/

namespace Verif.Spec.Keys
open Verif

/-- The configuration of the client's own keys: `keys`, or else `key_conf`. -/
def KeySpec (config : Obj) (o : Obj) : Prop :=
  Dict.get? config "keys" = some (.obj o) ∨ (Dict.get? config "keys" = none ∧ Dict.get? config "key_conf" = some (.obj o))

/-- A key the configuration of a client names: the client's secret and key files, filed under `''`; key sets that
are configured together with the name of their owner; and key files of the provider. -/
inductive ConfiguredKey (config : Obj) (issuer : String) : KeyLoad → Prop
  | secret (s : String) : Dict.get? config "client_secret" = some (.str s) → s ≠ "" → ConfiguredKey config issuer ("", "secret", .str s)
  | ownFile (o files : Obj) (l : List Val) (f : Val) : KeySpec config o → ("file", .obj files) ∈ o → ("rsa", .list l) ∈ files → f ∈ l →
      ConfiguredKey config issuer ("", "rsa", f)
  | url (o urls : Obj) (owner : String) (u : Val) : KeySpec config o → ("url", .obj urls) ∈ o → (owner, u) ∈ urls →
      ConfiguredKey config issuer (owner, "url", u)
  | providerUrl (pi o urls : Obj) (owner : String) (u : Val) : Dict.get? config "provider_info" = some (.obj pi) →
      Dict.get? pi "keys" = some (.obj o) → ("url", .obj urls) ∈ o → (owner, u) ∈ urls → ConfiguredKey config issuer (owner, "url", u)
  | providerFile (pi o files : Obj) (f : Val) : Dict.get? config "provider_info" = some (.obj pi) →
      Dict.get? pi "keys" = some (.obj o) → ("file", .obj files) ∈ o → ("jwks", f) ∈ files → ConfiguredKey config issuer (issuer, "file", f)
  | providerPem (pi o files : Obj) (f : Val) : Dict.get? config "provider_info" = some (.obj pi) →
      Dict.get? pi "keys" = some (.obj o) → ("file", .obj files) ∈ o → ("rsa", f) ∈ files → ConfiguredKey config issuer (issuer, "rsa", f)

/-- A key of the metadata that were fetched from the provider (none are configured), filed under the issuer the
client takes the provider for. -/
inductive Published (config : Obj) (c : Client) : KeyLoad → Prop
  | uri (v : Val) : (∀ pi, Dict.get? config "provider_info" = some (.obj pi) → pi = []) →
      Dict.get? c.ctx.providerInfo "jwks_uri" = some v → Published config c (c.ctx.issuer, "jwks_uri", v)
  | keys (v : Val) : (∀ pi, Dict.get? config "provider_info" = some (.obj pi) → pi = []) →
      Dict.get? c.ctx.providerInfo "jwks_uri" = none → Dict.get? c.ctx.providerInfo "jwks" = some v →
      Published config c (c.ctx.issuer, "jwks", v)

/-- The secret the provider gave the client when it registered, filed under `''` and under the client's name. -/
inductive Given (c : Client) : KeyLoad → Prop
  | secret (owner s : String) : owner = "" ∨ owner = c.ctx.clientId →
      Dict.get? c.ctx.registrationResponse "client_id" = some (.str c.ctx.clientId) → c.ctx.clientId ≠ "" →
      Dict.get? c.ctx.registrationResponse "client_secret" = some (.str s) → s ≠ "" → Given c (owner, "secret", .str s)

/-- The client's own keys, filed under the name it got when it registered. -/
inductive OwnCopy (c : Client) : KeyLoad → Prop
  | copy : Dict.get? c.ctx.registrationResponse "client_id" = some (.str c.ctx.clientId) → c.ctx.clientId ≠ "" →
      OwnCopy c (c.ctx.clientId, "copy", .str "")

/-- The key jar of the client holds what it should: `own` are the keys of the handler. -/
structure Jar (own : List KeyLoad) (config : Obj) (c : Client) : Prop where
  /-- everything in it has one of these origins … -/
  only : ∀ ld ∈ c.ctx.keyLoads, ld ∈ own ∨ ConfiguredKey config c.ctx.issuer ld ∨ Published config c ld ∨ Given c ld ∨ OwnCopy c ld
  /-- … and everything with one of these origins is in it. -/
  all : ∀ ld, ld ∈ own ∨ ConfiguredKey config c.ctx.issuer ld ∨ Published config c ld ∨ Given c ld → ld ∈ c.ctx.keyLoads

end Verif.Spec.Keys

namespace Verif
open StateInterface Service Handler Spec.Keys
open Verif.Props (dynamic_spec register_spec onNew_run)

/-- The set-up stays, and the name of the configuration. -/
structure SetUp (c c' : Client) : Prop where
  ctx : SameSetup c.ctx c'.ctx
  cfg : c'.cfg = c.cfg

instance : FrameRel SetUp where
  refl _ := ⟨SameSetup.refl _, rfl⟩
  trans h h' := ⟨h.ctx.trans h'.ctx, h'.cfg.trans h.cfg⟩

instance : ClientRel SetUp where
  send _ _ _ := ⟨SameSetup.refl _, rfl⟩
  dpop := frame_dpopKey fun _ _ _ => ⟨SameSetup.refl _, rfl⟩

theorem Local.setUp {k : String} {c c' : Client} (h : Local k c c') : SetUp c c' :=
  ⟨by rw [h.ctx]; exact SameSetup.refl _, h.cfg⟩

theorem setUp_onDB {α : Type} (m : Py DB α) : Frame SetUp (onDB m) := fun _ => ⟨SameSetup.refl _, rfl⟩

theorem setUp_onCtx {α : Type} {m : Py Ctx α} (h : ∀ ctx, SameSetup ctx (m ctx).2) : Frame SetUp (onCtx m) :=
  fun c => ⟨h c.ctx, rfl⟩

/-- The key jar, the configured metadata, the registration and the configuration stay. -/
structure KeepJar (c c' : Client) : Prop where
  keys : c'.ctx.keyLoads = c.ctx.keyLoads
  info : c'.ctx.providerInfo = c.ctx.providerInfo
  reg : c'.ctx.registrationResponse = c.ctx.registrationResponse
  cfg : c'.cfg = c.cfg

instance : FrameRel KeepJar where
  refl _ := ⟨rfl, rfl, rfl, rfl⟩
  trans h h' := ⟨h'.keys.trans h.keys, h'.info.trans h.info, h'.reg.trans h.reg, h'.cfg.trans h.cfg⟩

instance : ClientRel KeepJar where
  send _ _ _ := ⟨rfl, rfl, rfl, rfl⟩
  dpop := frame_dpopKey fun _ _ _ => ⟨rfl, rfl, rfl, rfl⟩

namespace Service

theorem keepJar_webfinger (x : Ext) (args : Obj) (o : CallOpts) (kwargs : Obj) :
    Frame KeepJar (doRequest x .webfinger args o kwargs) := by
  refine frame_doRequest (Frame.ask _) (fun r => Frame.pure _) (fun r => Frame.pure _) (fun m => ?_)
  simp only [updateMsg]
  refine Frame.bind Frame.read fun c => ?_
  refine Frame.bind ?_ fun _ => Frame.pure _
  intro c'
  simp only [onCtx, WebFinger.update]
  split
  · exact ⟨rfl, rfl, rfl, rfl⟩
  · split <;> exact ⟨rfl, rfl, rfl, rfl⟩
  · exact ⟨rfl, rfl, rfl, rfl⟩

theorem setUp_push (x : Ext) (r : Obj) : Frame SetUp (pushAuthorization x r) := by
  unfold pushAuthorization
  refine Frame.bind Frame.read fun c => ?_
  refine Frame.bind (Frame.lift _) fun b => Frame.bind (Frame.lift _) fun uv => Frame.bind (Frame.lift _) fun u => ?_
  exact Frame.bind (ClientRel.send _ _) fun _ => Frame.lift _

theorem setUp_authorization (x : Ext) (args : Obj) (o : CallOpts) (kwargs : Obj) :
    Frame SetUp (getRequestParameters x .authorization args o kwargs) := by
  have ha : ∀ req kwargs, Frame SetUp (authorizationPost x req kwargs) := by
    intro req kwargs
    unfold authorizationPost bindNonce
    refine Frame.bind ?_ fun _ => ?_
    · refine Frame.bind (Frame.lift _) fun b => ?_
      refine Frame.ite (fun _ => ?_) (fun _ => Frame.pure _)
      exact Frame.bind (Frame.lift _) fun _ => Frame.bind (Frame.lift _) fun _ => Frame.bind (Frame.lift _) fun _ =>
        Frame.bind (Frame.lift _) fun _ => setUp_onDB _
    · exact Frame.bind (Frame.lift _) fun _ => Frame.bind (Frame.lift _) fun _ => Frame.bind (Frame.lift _) fun _ =>
        Frame.bind (setUp_onDB _) fun _ => Frame.ask _
  have hc : ∀ a, Frame SetUp (addCodeChallenge x a) := by
    intro a
    unfold addCodeChallenge
    refine Frame.bind Frame.read fun c => ?_
    refine Frame.ite (fun _ => Frame.raise _) (fun _ => ?_)
    exact Frame.bind (Frame.lift _) fun _ => Frame.bind (Frame.lift _) fun _ => Frame.bind (setUp_onDB _) fun _ => Frame.pure _
  have hr : ∀ a, Frame SetUp (pickRedirect a) := by
    intro a
    unfold pickRedirect
    exact Frame.bind (Frame.ask _) fun _ => Frame.pure _
  have hpre : ∀ args kwargs, Frame SetUp (preConstruct x .authorization args kwargs) := by
    intro args kwargs
    simp only [preConstruct]
    refine Frame.bind ?_ fun _ => Frame.bind (hr _) fun _ => Frame.bind Frame.read fun _ =>
      Frame.bind (Frame.lift _) fun _ => Frame.ite (fun _ => Frame.bind (hc _) fun _ => Frame.pure _) (fun _ => Frame.pure _)
    unfold setState
    exact Frame.bind (Frame.lift _) fun _ => Frame.bind Frame.read fun _ => Frame.bind (setUp_onDB _) fun _ => Frame.pure _
  have hpost : ∀ req post, Frame SetUp (postConstruct x .authorization req post) := by
    intro req post
    unfold postConstruct
    refine Frame.bind Frame.read fun c => ?_
    exact Frame.bind (ha _ _) fun _ => Frame.ite (fun _ => setUp_push _ _) (fun _ => Frame.pure _)
  exact frame_buildRequest o (frame_construct args kwargs (fun _ => hpre _ _) (fun _ _ => hpost _ _))

end Service

namespace Handler

theorem setUp_initAuthorization (x : Ext) (req b : Obj) : Frame SetUp (initAuthorization x req b) := by
  unfold initAuthorization
  refine Frame.bind (Frame.ask _) fun args => Frame.bind Frame.read fun c => Frame.bind (setUp_onDB _) fun k =>
    Frame.bind (setUp_onDB _) fun _ => Frame.ite (fun _ => Frame.raise _) fun _ => ?_
  refine Frame.bind (setUp_onCtx (aliasScope_setup req)) fun _ => ?_
  exact Frame.bind (setUp_authorization _ _ _ _) fun _ => Frame.pure _

/-- A configuration is as it was, but for the issuer and the behaviour. -/
def SameConf (cc cc0 : ClientConf) : Prop :=
  ∀ k, k ≠ "issuer" → k ≠ "behaviour" → Dict.get? cc.config k = Dict.get? cc0.config k

/-- The jar of a client with configuration `C`. -/
def JarOf (C : Dict ClientConf) (own : List KeyLoad) (c : Client) : Prop :=
  ∃ cc, Dict.get? C c.cfg = some cc ∧ Jar own cc.config c

/-- A new client, before it has metadata. -/
def NewJar (C : Dict ClientConf) (own : List KeyLoad) (c : Client) : Prop :=
  ∃ cc, Dict.get? C c.cfg = some cc ∧ c.ctx.providerInfo = confObj cc.config "provider_info" ∧ c.ctx.registrationResponse = [] ∧
    c.ctx.keyLoads = confSecretKey cc.config ++ importKeys (confKeys cc.config) ++ own

/-- The jars of all clients of a handler. -/
structure Jars (C : Dict ClientConf) (own : List KeyLoad) (h : Handler) : Prop where
  clients : ∀ i c, Dict.get? h.issuer2rp i = some c → JarOf C own c
  configs : ∀ n cc, Dict.get? h.configs n = some cc → ∃ cc0, Dict.get? C n = some cc0 ∧ SameConf cc cc0
  own : h.keyLoads = own

variable {C : Dict ClientConf} {own : List KeyLoad} {h : Handler}

theorem JarOf.of {c c' : Client} (hj : JarOf C own c) (hs : SetUp c c') : JarOf C own c' := by
  obtain ⟨cc, h1, h2⟩ := hj
  obtain ⟨⟨b, e⟩, hcfg⟩ := hs
  refine ⟨cc, by rw [hcfg]; exact h1, ⟨fun ld hld => ?_, fun ld hld => ?_⟩⟩
  · rw [e] at hld
    rcases h2.only ld hld with h | h | h | h | h
    · exact Or.inl h
    · exact Or.inr (Or.inl (by rw [e]; exact h))
    · refine Or.inr (Or.inr (Or.inl ?_))
      cases h with
      | uri v a b' =>
        have := Published.uri (config := cc.config) (c := c') v a (by rw [e]; exact b')
        rwa [e] at this
      | keys v a b' c'' =>
        have := Published.keys (config := cc.config) (c := c') v a (by rw [e]; exact b') (by rw [e]; exact c'')
        rwa [e] at this
    · refine Or.inr (Or.inr (Or.inr (Or.inl ?_)))
      cases h with
      | secret o s a1 a2 a3 a4 a5 => exact .secret o s (by rw [e]; exact a1) (by rw [e]; exact a2) (by rw [e]; exact a3) (by rw [e]; exact a4) a5
    · refine Or.inr (Or.inr (Or.inr (Or.inr ?_)))
      cases h with
      | copy a1 a2 =>
        have := OwnCopy.copy (c := c') (by rw [e]; exact a1) (by rw [e]; exact a2)
        rwa [e] at this
  · have : ld ∈ c.ctx.keyLoads := by
      apply h2.all ld
      rcases hld with h | h | h | h
      · exact Or.inl h
      · exact Or.inr (Or.inl (by rw [e] at h; exact h))
      · refine Or.inr (Or.inr (Or.inl ?_))
        cases h with
        | uri v a b' => rw [e] at b' ⊢; exact .uri v a b'
        | keys v a b' c'' => rw [e] at b' c'' ⊢; exact .keys v a b' c''
      · refine Or.inr (Or.inr (Or.inr ?_))
        cases h with
        | secret o s a1 a2 a3 a4 a5 => rw [e] at a1 a2 a3 a4; exact .secret o s a1 a2 a3 a4 a5
    rw [e]; exact this

theorem jars_share (hj : Jars C own h) (cfg : String) (b : Obj) : Jars C own (share cfg b h) := by
  unfold share
  split
  · exact hj
  · next cc hcc =>
    split
    · refine ⟨fun i c hc => ?_, fun n cc' hc => ?_, hj.own⟩
      · have hmap : ∀ l : Dict Client, Dict.get? (l.map (fun p => (p.1, sharedClient cfg b p.2))) i =
            (Dict.get? l i).map (sharedClient cfg b) := fun l => Dict.get?_map _ _ _
        simp only [hmap, Option.map_eq_some_iff] at hc
        obtain ⟨d, hd, rfl⟩ := hc
        refine JarOf.of (hj.clients i d hd) ?_
        unfold sharedClient
        split
        · exact ⟨⟨b, rfl⟩, rfl⟩
        · exact FrameRel.refl _
      · simp only [Dict.get?_set] at hc
        split at hc
        · next e =>
          subst e
          injection hc with hc
          subst hc
          obtain ⟨cc0, h1, h2⟩ := hj.configs _ cc hcc
          exact ⟨cc0, h1, fun k k1 k2 => by simp only [Dict.get?_set_ne _ _ (Ne.symm k2)]; exact h2 k k1 k2⟩
        · exact hj.configs n cc' hc
    · exact hj

theorem jars_set (hj : Jars C own h) {j : String} {d : Client} (hd : JarOf C own d) :
    Jars C own { h with issuer2rp := Dict.set h.issuer2rp j d } := by
  refine ⟨fun i c hc => ?_, hj.configs, hj.own⟩
  simp only [Dict.get?_set] at hc
  split at hc
  · injection hc with hc; subst hc; exact hd
  · exact hj.clients i c hc

theorem jars_onClient {α : Type} {j : String} {m : Py Client α} (hj : Jars C own h)
    (hf : ∀ d, SetUp d (m d).2) : Jars C own (onClient j m h).2 := by
  unfold onClient
  cases hc : Dict.get? h.issuer2rp j with
  | none => exact hj
  | some d => exact jars_share (jars_set hj (JarOf.of (hj.clients j d hc) (hf d))) _ _

theorem confObj_congr {a b : Obj} {k : String} (h : Dict.get? a k = Dict.get? b k) : confObj a k = confObj b k := by
  unfold confObj; rw [h]

theorem newJar_new (x : Ext) {cc cc0 : ClientConf} {cfg : String} (hC : Dict.get? C cfg = some cc0) (hs : SameConf cc cc0)
    (ho : h.keyLoads = own) : NewJar C own (newClient x h cfg cc) := by
  refine ⟨cc0, hC, confObj_congr (hs _ (by decide) (by decide)), rfl, ?_⟩
  show newKeys h cc.config = _
  unfold newKeys confSecretKey confKeys
  rw [ho]
  have e1 : confStr cc.config "client_secret" = confStr cc0.config "client_secret" := by
    unfold confStr; rw [hs _ (by decide) (by decide)]
  have e2 : Dict.has cc.config "keys" = Dict.has cc0.config "keys" := by
    rw [Dict.has_eq, Dict.has_eq, hs _ (by decide) (by decide)]
  rw [e1, e2, confObj_congr (hs "keys" (by decide) (by decide)), confObj_congr (hs "key_conf" (by decide) (by decide))]

theorem jars_initClient (x : Ext) (issuer : String) (hj : Jars C own h) :
    Jars C own (initClient x issuer h).2 ∧ ∀ c, (initClient x issuer h).1 = .ok c → NewJar C own c := by
  unfold initClient
  split
  · next cc hcc =>
    refine ⟨hj, fun c hc => ?_⟩
    injection hc with hc
    subst hc
    obtain ⟨cc0, h1, h2⟩ := hj.configs _ cc hcc
    exact newJar_new x h1 h2 hj.own
  · split
    · exact ⟨hj, fun c hc => by cases hc⟩
    · next cc hcc =>
      obtain ⟨cc0, h1, h2⟩ := hj.configs _ cc hcc
      have h3 : SameConf { cc with config := Dict.set cc.config "issuer" (.str issuer) } cc0 :=
        fun k k1 k2 => by simp only [Dict.get?_set_ne _ _ (Ne.symm k1)]; exact h2 k k1 k2
      refine ⟨⟨hj.clients, fun n cc' hc => ?_, hj.own⟩, fun c hc => ?_⟩
      · simp only [Dict.get?_set] at hc
        split at hc
        · next e =>
          subst e
          injection hc with hc
          subst hc
          exact ⟨cc0, h1, h3⟩
        · exact hj.configs n cc' hc
      · injection hc with hc
        subst hc
        exact newJar_new x h1 h3 hj.own

/-- The keys of a new client are the configured ones. -/
theorem mem_secretKey (config : Obj) (ld : KeyLoad) :
    ld ∈ confSecretKey config ↔ ∃ s, Dict.get? config "client_secret" = some (.str s) ∧ s ≠ "" ∧ ld = ("", "secret", .str s) := by
  have key : ∀ t, (∀ s, Dict.get? config "client_secret" = some (.str s) ↔ s = t ∧ t ≠ "" ∨ s = "" ∧ Dict.get? config "client_secret" = some (.str "")) →
      (ld ∈ (if t = "" then [] else [("", "secret", Val.str t)]) ↔
        ∃ s, Dict.get? config "client_secret" = some (.str s) ∧ s ≠ "" ∧ ld = ("", "secret", .str s)) := by
    intro t ht
    by_cases e : t = ""
    · rw [if_pos e]
      simp only [List.not_mem_nil, false_iff]
      rintro ⟨s, h1, h2, _⟩
      rcases (ht s).1 h1 with ⟨_, h⟩ | ⟨h, _⟩
      · exact h e
      · exact h2 h
    · rw [if_neg e, List.mem_singleton]
      constructor
      · rintro rfl; exact ⟨t, (ht t).2 (Or.inl ⟨rfl, e⟩), e, rfl⟩
      · rintro ⟨s, h1, h2, rfl⟩
        rcases (ht s).1 h1 with ⟨h, _⟩ | ⟨h, _⟩
        · rw [h]
        · exact absurd h h2
  unfold confSecretKey
  apply key
  intro s
  unfold confStr
  cases hg : Dict.get? config "client_secret" with
  | none => simp
  | some v =>
    cases v with
    | str t =>
      simp only [Option.some.injEq, Val.str.injEq]
      by_cases e : t = ""
      · subst e
        constructor
        · rintro rfl; exact Or.inr ⟨rfl, rfl⟩
        · rintro (⟨_, h⟩ | ⟨h, _⟩)
          · exact absurd rfl h
          · exact h.symm
      · constructor
        · rintro rfl; exact Or.inl ⟨rfl, e⟩
        · rintro (⟨h, _⟩ | ⟨_, h⟩)
          · exact h.symm
          · exact absurd h e
    | _ => simp

theorem mem_urlKeys (v : Val) (ld : KeyLoad) :
    ld ∈ urlKeys v ↔ ∃ urls owner u, v = .obj urls ∧ (owner, u) ∈ urls ∧ ld = (owner, "url", u) := by
  unfold urlKeys
  split
  · next o =>
    simp only [List.mem_map]
    constructor
    · rintro ⟨p, hp, rfl⟩; exact ⟨o, p.1, p.2, rfl, hp, rfl⟩
    · rintro ⟨urls, owner, u, h1, h2, rfl⟩
      injection h1 with h1
      subst h1
      exact ⟨_, h2, rfl⟩
  · next hn =>
    simp only [List.not_mem_nil, false_iff]
    rintro ⟨urls, _, _, rfl, _⟩
    exact hn _ rfl

theorem mem_ownKeyFiles (v : Val) (ld : KeyLoad) :
    ld ∈ ownKeyFiles v ↔ ∃ files l f, v = .obj files ∧ ("rsa", .list l) ∈ files ∧ f ∈ l ∧ ld = ("", "rsa", f) := by
  unfold ownKeyFiles
  split
  · next o =>
    simp only [List.mem_flatMap]
    constructor
    · rintro ⟨⟨k, w⟩, hp, hm⟩
      simp only at hm
      split at hm
      · simp only [List.mem_map] at hm
        obtain ⟨f, hf, rfl⟩ := hm
        exact ⟨o, _, f, rfl, hp, hf, rfl⟩
      · cases hm
    · rintro ⟨files, l, f, h1, h2, h3, rfl⟩
      injection h1 with h1
      subst h1
      exact ⟨_, h2, List.mem_map.2 ⟨f, h3, rfl⟩⟩
  · next hn =>
    simp only [List.not_mem_nil, false_iff]
    rintro ⟨files, _, _, rfl, _⟩
    exact hn _ rfl

theorem mem_fileKeys (issuer : String) (v : Val) (ld : KeyLoad) :
    ld ∈ fileKeys issuer v ↔ ∃ files f, v = .obj files ∧
      (("jwks", f) ∈ files ∧ ld = (issuer, "file", f) ∨ ("rsa", f) ∈ files ∧ ld = (issuer, "rsa", f)) := by
  unfold fileKeys
  split
  · next o =>
    simp only [List.mem_flatMap]
    constructor
    · rintro ⟨⟨k, w⟩, hp, hm⟩
      simp only at hm
      split at hm
      · next e =>
        subst e
        simp only [List.mem_singleton] at hm
        exact ⟨o, w, rfl, Or.inl ⟨hp, hm⟩⟩
      · split at hm
        · next e =>
          subst e
          simp only [List.mem_singleton] at hm
          exact ⟨o, w, rfl, Or.inr ⟨hp, hm⟩⟩
        · cases hm
    · rintro ⟨files, f, h1, h2⟩
      injection h1 with h1
      subst h1
      rcases h2 with ⟨h2, rfl⟩ | ⟨h2, rfl⟩
      · exact ⟨_, h2, by simp⟩
      · exact ⟨_, h2, by simp⟩
  · next hn =>
    simp only [List.not_mem_nil, false_iff]
    rintro ⟨files, _, rfl, _⟩
    exact hn _ rfl

theorem confKeys_spec (config : Obj) : KeySpec config (confKeys config) ∨ (confKeys config = [] ∧ ∀ o, KeySpec config o → o = []) := by
  unfold KeySpec confKeys confObj
  rw [Dict.has_eq]
  cases hk : Dict.get? config "keys" with
  | some v =>
    simp only [Option.isSome_some, if_true]
    cases v with
    | obj o => left; left; rfl
    | _ => right; refine ⟨rfl, fun o ho => ?_⟩; rcases ho with ho | ⟨ho, _⟩ <;> cases ho
  | none =>
    simp only [Option.isSome_none, Bool.false_eq_true, if_false]
    cases hk' : Dict.get? config "key_conf" with
    | none => right; refine ⟨rfl, fun o ho => ?_⟩; rcases ho with ho | ⟨_, ho⟩ <;> cases ho
    | some v =>
      cases v with
      | obj o => left; right; simp
      | _ => right; refine ⟨rfl, fun o ho => ?_⟩; rcases ho with ho | ⟨_, ho⟩ <;> cases ho

theorem keySpec_unique {config a b : Obj} (h : KeySpec config a) (h' : KeySpec config b) : a = b := by
  rcases h with h | ⟨h, h1⟩ <;> rcases h' with h' | ⟨h', h1'⟩
  · rw [h] at h'; injection h' with h'; injection h'
  · rw [h] at h'; cases h'
  · rw [h] at h'; cases h'
  · rw [h1] at h1'; injection h1' with h'; injection h'

theorem mem_importKeys (config : Obj) (ld : KeyLoad) :
    ld ∈ importKeys (confKeys config) ↔ ∃ o, KeySpec config o ∧
      ((∃ files l f, ("file", .obj files) ∈ o ∧ ("rsa", .list l) ∈ files ∧ f ∈ l ∧ ld = ("", "rsa", f)) ∨
       (∃ urls owner u, ("url", .obj urls) ∈ o ∧ (owner, u) ∈ urls ∧ ld = (owner, "url", u))) := by
  have key : ∀ o : Obj, ld ∈ importKeys o ↔
      ((∃ files l f, ("file", .obj files) ∈ o ∧ ("rsa", .list l) ∈ files ∧ f ∈ l ∧ ld = ("", "rsa", f)) ∨
       (∃ urls owner u, ("url", .obj urls) ∈ o ∧ (owner, u) ∈ urls ∧ ld = (owner, "url", u))) := by
    intro o
    unfold importKeys
    simp only [List.mem_flatMap]
    constructor
    · rintro ⟨⟨k, w⟩, hp, hm⟩
      simp only at hm
      split at hm
      · next e =>
        subst e
        obtain ⟨files, l, f, rfl, h2, h3, h4⟩ := (mem_ownKeyFiles w ld).1 hm
        exact Or.inl ⟨files, l, f, hp, h2, h3, h4⟩
      · split at hm
        · next e =>
          subst e
          obtain ⟨urls, owner, u, rfl, h2, h3⟩ := (mem_urlKeys w ld).1 hm
          exact Or.inr ⟨urls, owner, u, hp, h2, h3⟩
        · cases hm
    · rintro (⟨files, l, f, h1, h2, h3, h4⟩ | ⟨urls, owner, u, h1, h2, h3⟩)
      · exact ⟨_, h1, by rw [if_pos rfl]; exact (mem_ownKeyFiles _ ld).2 ⟨files, l, f, rfl, h2, h3, h4⟩⟩
      · exact ⟨_, h1, by rw [if_neg (by simp), if_pos rfl]; exact (mem_urlKeys _ ld).2 ⟨urls, owner, u, rfl, h2, h3⟩⟩
  rw [key]
  rcases confKeys_spec config with hs | ⟨he, hs⟩
  · constructor
    · intro hh; exact ⟨_, hs, hh⟩
    · rintro ⟨o, ho, hh⟩
      rw [keySpec_unique hs ho]; exact hh
  · rw [he]
    constructor
    · rintro (⟨_, _, _, h, _⟩ | ⟨_, _, _, h, _⟩) <;> cases h
    · rintro ⟨o, ho, hh⟩
      rw [hs o ho] at hh; exact hh

/-- Keys of a configuration other than those of the provider. -/
theorem configured_iff (config : Obj) (issuer : String) (ld : KeyLoad) (pi : Obj) (hpi : confObj config "provider_info" = pi)
    (hall : knownKeys pi = .ok ()) :
    ConfiguredKey config issuer ld ↔ ld ∈ confSecretKey config ∨ ld ∈ importKeys (confKeys config) ∨ ld ∈ configuredKeys issuer pi := by
  have hk : ∀ o, Dict.get? pi "keys" = some (.obj o) → o.takeWhile (fun p => p.1 == "url" || p.1 == "file") = o := by
    intro o ho
    unfold knownKeys at hall
    rw [ho] at hall
    simp only at hall
    split at hall
    · next ha =>
      clear hall ho
      induction o with
      | nil => rfl
      | cons p o ih =>
        simp only [List.all_cons, Bool.and_eq_true] at ha
        rw [List.takeWhile_cons, if_pos ha.1, ih ha.2]
    · cases hall
  have hc : ∀ ld, ld ∈ configuredKeys issuer pi ↔ ∃ o, Dict.get? pi "keys" = some (.obj o) ∧
      ((∃ urls owner u, ("url", .obj urls) ∈ o ∧ (owner, u) ∈ urls ∧ ld = (owner, "url", u)) ∨
       (∃ files f, ("file", .obj files) ∈ o ∧ (("jwks", f) ∈ files ∧ ld = (issuer, "file", f) ∨ ("rsa", f) ∈ files ∧ ld = (issuer, "rsa", f)))) := by
    intro ld
    unfold configuredKeys confObj
    cases hg : Dict.get? pi "keys" with
    | none =>
      simp only [List.takeWhile_nil, List.flatMap_nil, List.not_mem_nil, false_iff]
      rintro ⟨o, ho, _⟩; cases ho
    | some v =>
      cases v with
      | obj o =>
        simp only [hk o hg, List.mem_flatMap]
        have hkinds : ∀ p ∈ o, p.1 = "url" ∨ p.1 = "file" := by
          intro p hp
          rw [← hk o hg] at hp
          have := List.all_takeWhile (l := o) (p := fun p => p.1 == "url" || p.1 == "file")
          have := List.all_eq_true.1 this p hp
          simpa using this
        constructor
        · rintro ⟨⟨k, w⟩, hp, hm⟩
          refine ⟨o, rfl, ?_⟩
          simp only at hm
          split at hm
          · next e =>
            subst e
            obtain ⟨urls, owner, u, rfl, h2, h3⟩ := (mem_urlKeys w ld).1 hm
            exact Or.inl ⟨urls, owner, u, hp, h2, h3⟩
          · next e =>
            have hf : k = "file" := (hkinds _ hp).resolve_left e
            subst hf
            obtain ⟨files, f, rfl, h2⟩ := (mem_fileKeys issuer w ld).1 hm
            exact Or.inr ⟨files, f, hp, h2⟩
        · rintro ⟨o', ho', hh⟩
          injection ho' with ho'
          injection ho' with ho'
          subst ho'
          rcases hh with ⟨urls, owner, u, h1, h2, h3⟩ | ⟨files, f, h1, h2⟩
          · exact ⟨_, h1, by rw [if_pos rfl]; exact (mem_urlKeys _ ld).2 ⟨urls, owner, u, rfl, h2, h3⟩⟩
          · exact ⟨_, h1, by rw [if_neg (by simp)]; exact (mem_fileKeys _ _ ld).2 ⟨files, f, rfl, h2⟩⟩
      | _ =>
        simp only [List.takeWhile_nil, List.flatMap_nil, List.not_mem_nil, false_iff]
        rintro ⟨o, ho, _⟩; cases ho
  have hpi' : ∀ o, Dict.get? pi "keys" = some (.obj o) → Dict.get? config "provider_info" = some (.obj pi) := by
    intro o ho
    unfold confObj at hpi
    split at hpi
    · next e => subst hpi; exact e
    · subst hpi; cases ho
  have hpi2 : ∀ p, Dict.get? config "provider_info" = some (.obj p) → p = pi := by
    intro p hp
    unfold confObj at hpi
    rw [hp] at hpi
    exact hpi
  rw [mem_secretKey, mem_importKeys, hc]
  constructor
  · intro hh
    cases hh with
    | secret s h1 h2 => exact Or.inl ⟨s, h1, h2, rfl⟩
    | ownFile o files l f h1 h2 h3 h4 => exact Or.inr (Or.inl ⟨o, h1, Or.inl ⟨files, l, f, h2, h3, h4, rfl⟩⟩)
    | url o urls owner u h1 h2 h3 => exact Or.inr (Or.inl ⟨o, h1, Or.inr ⟨urls, owner, u, h2, h3, rfl⟩⟩)
    | providerUrl p o urls owner u h0 h1 h2 h3 => exact Or.inr (Or.inr ⟨o, hpi2 p h0 ▸ h1, Or.inl ⟨urls, owner, u, h2, h3, rfl⟩⟩)
    | providerFile p o files f h0 h1 h2 h3 => exact Or.inr (Or.inr ⟨o, hpi2 p h0 ▸ h1, Or.inr ⟨files, f, h2, Or.inl ⟨h3, rfl⟩⟩⟩)
    | providerPem p o files f h0 h1 h2 h3 => exact Or.inr (Or.inr ⟨o, hpi2 p h0 ▸ h1, Or.inr ⟨files, f, h2, Or.inr ⟨h3, rfl⟩⟩⟩)
  · rintro (⟨s, h1, h2, rfl⟩ | ⟨o, h1, ⟨files, l, f, h2, h3, h4, rfl⟩ | ⟨urls, owner, u, h2, h3, rfl⟩⟩ |
      ⟨o, h1, ⟨urls, owner, u, h2, h3, rfl⟩ | ⟨files, f, h2, ⟨h3, rfl⟩ | ⟨h3, rfl⟩⟩⟩)
    · exact .secret s h1 h2
    · exact .ownFile o files l f h1 h2 h3 h4
    · exact .url o urls owner u h1 h2 h3
    · exact .providerUrl pi o urls owner u (hpi' o h1) h1 h2 h3
    · exact .providerFile pi o files f (hpi' o h1) h1 h2 h3
    · exact .providerPem pi o files f (hpi' o h1) h1 h2 h3

/-- Configuring metadata: the keys are there. -/
theorem jar_providerInfo {x : Ext} {c c' : Client} {i : String} (hn : NewJar C own c) (h : doProviderInfo x c = (.ok i, c')) :
    JarOf C own c' ∧ c'.ctx.registrationResponse = [] := by
  obtain ⟨cc, hC, hpi, hreg, hkeys⟩ := hn
  unfold doProviderInfo at h
  rw [Py.read_bind_run] at h
  split at h
  · next he =>
    have he : c.ctx.providerInfo = [] := by simpa using he
    obtain ⟨u, c1, e1, h⟩ := Py.bind_eq_ok.1 h
    obtain ⟨v, c2, e2, h⟩ := Py.bind_eq_ok.1 h
    obtain ⟨hl, rfl⟩ := Py.lift_eq_ok.1 h
    have e3 : c1 = c2 := congrArg Prod.snd e2
    subst e3
    have hv : Dict.get? c1.ctx.providerInfo "issuer" = some v := Dict.getItem_eq_ok.1 (congrArg Prod.fst e2)
    obtain ⟨_, _, _, _, _, _, _, _, _, _, _, _, _, _, _, _, a14, a15, a16⟩ := dynamic_spec e1 _ hv he
    have hno : ∀ pi, Dict.get? cc.config "provider_info" = some (.obj pi) → pi = [] := by
      intro pi hp
      rw [he] at hpi
      unfold confObj at hpi
      rw [hp] at hpi
      exact hpi.symm
    have hconf : ∀ ld, ConfiguredKey cc.config c1.ctx.issuer ld ↔ ld ∈ confSecretKey cc.config ∨ ld ∈ importKeys (confKeys cc.config) := by
      intro ld
      have h1 : knownKeys ([] : Obj) = .ok () := rfl
      rw [configured_iff cc.config c1.ctx.issuer ld [] (by rw [← hpi, he]) h1]
      simp [configuredKeys, confObj, Dict.get?]
    refine ⟨⟨cc, by rw [a16]; exact hC, ⟨fun ld hld => ?_, fun ld hld => ?_⟩⟩, a15.trans hreg⟩
    · rw [a14, hkeys] at hld
      have : ld ∈ confSecretKey cc.config ++ importKeys (confKeys cc.config) ++ own ∨ Published cc.config c1 ld := by
        unfold Discovery.loadKeys at hld
        split at hld
        · next w hw =>
          rcases List.mem_append.1 hld with h | h
          · exact Or.inl h
          · rw [List.mem_singleton] at h; subst h; exact Or.inr (.uri w hno hw)
        · next hw =>
          split at hld
          · next w hw' =>
            rcases List.mem_append.1 hld with h | h
            · exact Or.inl h
            · rw [List.mem_singleton] at h; subst h; exact Or.inr (.keys w hno hw hw')
          · exact Or.inl hld
      rcases this with h | h
      · rcases List.mem_append.1 h with h | h
        · exact Or.inr (Or.inl ((hconf ld).2 (List.mem_append.1 h)))
        · exact Or.inl h
      · exact Or.inr (Or.inr (Or.inl h))
    · rw [a14, hkeys]
      have hold : ∀ L : List KeyLoad, ld ∈ L → ld ∈ Discovery.loadKeys c1.ctx.issuer c1.ctx.providerInfo L := by
        intro L hL
        unfold Discovery.loadKeys
        split
        · exact List.mem_append_left _ hL
        · split
          · exact List.mem_append_left _ hL
          · exact hL
      rcases hld with h | h | h | h
      · exact hold _ (List.mem_append_right _ h)
      · exact hold _ (List.mem_append_left _ (List.mem_append.2 ((hconf ld).1 h)))
      · cases h with
        | uri w _ hw => unfold Discovery.loadKeys; rw [hw]; simp
        | keys w _ hw hw' => unfold Discovery.loadKeys; rw [hw, hw']; simp
      · cases h with
        | secret o s _ h2 => rw [a15, hreg] at h2; cases h2
  · next he =>
    have he : c.ctx.providerInfo ≠ [] := by simpa using he
    obtain ⟨_, c1, e1, h⟩ := Py.bind_eq_ok.1 h
    obtain ⟨_, c2, e2, h⟩ := Py.bind_eq_ok.1 h
    obtain ⟨hl, rfl⟩ := Py.lift_eq_ok.1 h
    obtain ⟨hk, rfl⟩ := Py.lift_eq_ok.1 e2
    have hc1 := (congrArg Prod.snd e1).symm
    subst hc1
    have hconf := fun ld => configured_iff cc.config c.ctx.issuer ld c.ctx.providerInfo hpi.symm hk
    refine ⟨⟨cc, hC, ⟨fun ld hld => ?_, fun ld hld => ?_⟩⟩, hreg⟩
    · have hld : ld ∈ c.ctx.keyLoads ++ configuredKeys c.ctx.issuer c.ctx.providerInfo := hld
      rw [hkeys] at hld
      rcases List.mem_append.1 hld with h | h
      · rcases List.mem_append.1 h with h | h
        · rcases List.mem_append.1 h with h | h
          · exact Or.inr (Or.inl ((hconf ld).2 (Or.inl h)))
          · exact Or.inr (Or.inl ((hconf ld).2 (Or.inr (Or.inl h))))
        · exact Or.inl h
      · exact Or.inr (Or.inl ((hconf ld).2 (Or.inr (Or.inr h))))
    · show ld ∈ c.ctx.keyLoads ++ configuredKeys c.ctx.issuer c.ctx.providerInfo
      rw [hkeys]
      have hpub : ¬ ∀ pi, Dict.get? cc.config "provider_info" = some (.obj pi) → pi = [] := by
        intro hh
        rw [hpi] at he
        unfold confObj at he
        split at he
        · next o ho => exact he (hh o ho)
        · exact he rfl
      rcases hld with h | h | h | h
      · simp [h]
      · rcases (hconf ld).1 h with h | h | h <;> simp [h]
      · cases h with
        | uri _ hn => exact absurd hn hpub
        | keys _ hn => exact absurd hn hpub
      · cases h with
        | secret o s _ h2 => exact absurd (hreg ▸ h2 : Dict.get? ([] : Obj) "client_id" = _) (by simp [Dict.get?])

/-- What registering does to the key jar. -/
theorem update_keys (v : Obj) (ctx : Ctx) :
    (Registration.update v ctx).issuer = ctx.issuer ∧ (Registration.update v ctx).providerInfo = ctx.providerInfo ∧
    (∀ k, k ≠ "token_endpoint_auth_method" → Dict.get? (Registration.update v ctx).registrationResponse k = Dict.get? v k) ∧
    ((∃ cid, Dict.get? v "client_id" = some (.str cid) ∧ cid ≠ "" ∧ (Registration.update v ctx).clientId = cid ∧
      ((∃ s, Dict.get? v "client_secret" = some (.str s) ∧ s ≠ "" ∧
          (Registration.update v ctx).keyLoads = Registration.secretKeys cid s (Registration.copyOwnKeys cid ctx.keyLoads)) ∨
       ((∀ s, Dict.get? v "client_secret" = some (.str s) → s = "") ∧
          (Registration.update v ctx).keyLoads = Registration.copyOwnKeys cid ctx.keyLoads))) ∨
     ((∀ cid, Dict.get? v "client_id" = some (.str cid) → cid = "") ∧ (Registration.update v ctx).keyLoads = ctx.keyLoads)) := by
  unfold Registration.update
  have hr : ∀ k, k ≠ "token_endpoint_auth_method" →
      Dict.get? (if Dict.has v "token_endpoint_auth_method" then v
        else Dict.set v "token_endpoint_auth_method" (.str "client_secret_basic")) k = Dict.get? v k := by
    intro k hk
    split
    · rfl
    · exact Dict.get?_set_ne _ _ (Ne.symm hk)
  generalize (if Dict.has v "token_endpoint_auth_method" then v
        else Dict.set v "token_endpoint_auth_method" (.str "client_secret_basic")) = r at hr
  have hid := hr "client_id" (by decide)
  have hse := hr "client_secret" (by decide)
  have key : ∀ R : Ctx, R = Registration.applyClientId r { ctx with registrationResponse := r } →
      (R.issuer = ctx.issuer ∧ R.providerInfo = ctx.providerInfo ∧
        (∀ k, k ≠ "token_endpoint_auth_method" → Dict.get? R.registrationResponse k = Dict.get? v k) ∧
    ((∃ cid, Dict.get? v "client_id" = some (.str cid) ∧ cid ≠ "" ∧ R.clientId = cid ∧
      ((∃ s, Dict.get? v "client_secret" = some (.str s) ∧ s ≠ "" ∧
          R.keyLoads = Registration.secretKeys cid s (Registration.copyOwnKeys cid ctx.keyLoads)) ∨
       ((∀ s, Dict.get? v "client_secret" = some (.str s) → s = "") ∧
          R.keyLoads = Registration.copyOwnKeys cid ctx.keyLoads))) ∨
     ((∀ cid, Dict.get? v "client_id" = some (.str cid) → cid = "") ∧ R.keyLoads = ctx.keyLoads))) := by
    rintro R rfl
    unfold Registration.applyClientId
    rw [← hid, ← hse]
    split
    · next cid hcid =>
      split
      · next he =>
        refine ⟨rfl, rfl, hr, Or.inr ⟨fun c hc => ?_, rfl⟩⟩
        rw [hcid] at hc
        injection hc with hc
        injection hc with hc
        rw [← hc]; exact he
      · next he =>
        unfold Registration.applySecret
        split
        · next s hs =>
          split
          · next hes =>
            refine ⟨rfl, rfl, hr, Or.inl ⟨cid, hcid, he, rfl, Or.inr ⟨fun t ht => ?_, rfl⟩⟩⟩
            rw [hs] at ht
            injection ht with ht
            injection ht with ht
            rw [← ht]; exact hes
          · next hes => exact ⟨rfl, rfl, hr, Or.inl ⟨cid, hcid, he, rfl, Or.inl ⟨s, hs, hes, rfl⟩⟩⟩
        · next hs => exact ⟨rfl, rfl, hr, Or.inl ⟨cid, hcid, he, rfl, Or.inr ⟨fun t ht => absurd ht (hs t), rfl⟩⟩⟩
    · next hcid => exact ⟨rfl, rfl, hr, Or.inr ⟨fun c hc => absurd hc (hcid c), rfl⟩⟩
  simp only
  split
  · exact key (Registration.applyClientId r { ctx with registrationResponse := r }) rfl
  · exact key _ rfl

theorem jar_register {x : Ext} {b : Obj} {c c' : Client} (hj : JarOf C own c) (hreg : c.ctx.registrationResponse = [])
    (h : register x b c = (.ok (), c')) : JarOf C own c' := by
  have hcfg : c'.cfg = c.cfg := by
    have := (made_register x b c).cfg
    rw [h] at this
    exact this
  rcases register_spec h with ⟨_, rfl⟩ | ⟨_, _, _, _, _, v, _, _, _, _, _, _, ⟨ca, h2, hctx⟩, _⟩
  · exact hj
  · obtain ⟨cc, hC, hj⟩ := hj
    obtain ⟨u1, u2, u3, u4⟩ := update_keys v { c.ctx with callback := ca, hash2issuer := h2 }
    rw [← hctx] at u1 u2 u3 u4
    have u1 : c'.ctx.issuer = c.ctx.issuer := u1
    have u2 : c'.ctx.providerInfo = c.ctx.providerInfo := u2
    have hpub : ∀ ld, Published cc.config c' ld ↔ Published cc.config c ld := by
      intro ld
      constructor
      · intro hh
        cases hh with
        | uri w a1 a2 => rw [u2] at a2; rw [u1]; exact .uri w a1 a2
        | keys w a1 a2 a3 => rw [u2] at a2 a3; rw [u1]; exact .keys w a1 a2 a3
      · intro hh
        cases hh with
        | uri w a1 a2 => rw [← u2] at a2; rw [← u1]; exact .uri w a1 a2
        | keys w a1 a2 a3 => rw [← u2] at a2 a3; rw [← u1]; exact .keys w a1 a2 a3
    have hold : ∀ ld, ld ∈ c.ctx.keyLoads ↔ ld ∈ own ∨ ConfiguredKey cc.config c'.ctx.issuer ld ∨ Published cc.config c' ld := by
      intro ld
      rw [u1, hpub]
      constructor
      · intro hh
        rcases hj.only ld hh with h | h | h | h | h
        · exact Or.inl h
        · exact Or.inr (Or.inl h)
        · exact Or.inr (Or.inr h)
        · cases h with
          | secret o s _ h2 => rw [hreg] at h2; cases h2
        · cases h with
          | copy h2 => rw [hreg] at h2; cases h2
      · rintro (h | h | h)
        · exact hj.all ld (Or.inl h)
        · exact hj.all ld (Or.inr (Or.inl h))
        · exact hj.all ld (Or.inr (Or.inr (Or.inl h)))
    have hcopy : ∀ cid ld, ld ∈ Registration.copyOwnKeys cid c.ctx.keyLoads →
        ld ∈ c.ctx.keyLoads ∨ ld = (cid, "copy", .str "") := by
      intro cid ld hh
      unfold Registration.copyOwnKeys at hh
      split at hh
      · exact Or.inl hh
      · simpa using hh
    have hcopy' : ∀ cid ld, ld ∈ c.ctx.keyLoads → ld ∈ Registration.copyOwnKeys cid c.ctx.keyLoads := by
      intro cid ld hh
      unfold Registration.copyOwnKeys
      split
      · exact hh
      · exact List.mem_append_left _ hh
    have hid := u3 "client_id" (by decide)
    have hse := u3 "client_secret" (by decide)
    refine ⟨cc, by rw [hcfg]; exact hC, ⟨fun ld hld => ?_, fun ld hld => ?_⟩⟩
    · have fin : ld ∈ c.ctx.keyLoads ∨ Given c' ld ∨ OwnCopy c' ld → ld ∈ own ∨ ConfiguredKey cc.config c'.ctx.issuer ld ∨
          Published cc.config c' ld ∨ Given c' ld ∨ OwnCopy c' ld := by
        rintro (h | h | h)
        · rcases (hold ld).1 h with h | h | h
          · exact Or.inl h
          · exact Or.inr (Or.inl h)
          · exact Or.inr (Or.inr (Or.inl h))
        · exact Or.inr (Or.inr (Or.inr (Or.inl h)))
        · exact Or.inr (Or.inr (Or.inr (Or.inr h)))
      apply fin
      rcases u4 with ⟨cid, k1, k2, k3, k4⟩ | ⟨_, k4⟩
      · subst k3
        have hcp : ld ∈ Registration.copyOwnKeys c'.ctx.clientId c.ctx.keyLoads → ld ∈ c.ctx.keyLoads ∨ Given c' ld ∨ OwnCopy c' ld := by
          intro hh
          rcases hcopy _ ld hh with h | rfl
          · exact Or.inl h
          · exact Or.inr (Or.inr (.copy (hid.trans k1) k2))
        rcases k4 with ⟨s, k4, k5, k6⟩ | ⟨_, k6⟩
        · rw [k6] at hld
          unfold Registration.secretKeys at hld
          rcases List.mem_append.1 hld with h | h
          · exact hcp h
          · simp only [List.mem_cons, List.not_mem_nil, or_false] at h
            rcases h with rfl | rfl
            · exact Or.inr (Or.inl (.secret _ s (Or.inl rfl) (hid.trans k1) k2 (hse.trans k4) k5))
            · exact Or.inr (Or.inl (.secret _ s (Or.inr rfl) (hid.trans k1) k2 (hse.trans k4) k5))
        · rw [k6] at hld
          exact hcp hld
      · rw [k4] at hld
        exact Or.inl hld
    · rcases u4 with ⟨cid, k1, k2, k3, k4⟩ | ⟨k1, k4⟩
      · subst k3
        have hin : ld ∈ c.ctx.keyLoads → ld ∈ c'.ctx.keyLoads := by
          intro hh
          rcases k4 with ⟨s, _, _, k6⟩ | ⟨_, k6⟩
          · rw [k6]; exact List.mem_append_left _ (hcopy' _ _ hh)
          · rw [k6]; exact hcopy' _ _ hh
        rcases hld with h | h | h | h
        · exact hin ((hold ld).2 (Or.inl h))
        · exact hin ((hold ld).2 (Or.inr (Or.inl h)))
        · exact hin ((hold ld).2 (Or.inr (Or.inr h)))
        · cases h with
          | secret o s a1 a2 a3 a4 a5 =>
            rw [hse] at a4
            rcases k4 with ⟨s', k4, k5, k6⟩ | ⟨k4, _⟩
            · rw [k4] at a4
              injection a4 with a4
              injection a4 with a4
              subst a4
              rw [k6]
              refine List.mem_append_right _ ?_
              rcases a1 with rfl | rfl <;> simp
            · exact absurd (k4 s a4) a5
      · rcases hld with h | h | h | h
        · rw [k4]; exact (hold ld).2 (Or.inl h)
        · rw [k4]; exact (hold ld).2 (Or.inr (Or.inl h))
        · rw [k4]; exact (hold ld).2 (Or.inr (Or.inr h))
        · cases h with
          | secret o s a1 a2 a3 => exact absurd (k1 _ (hid.symm.trans a2)) a3

theorem jars_adopt (x : Ext) (d : Client) (issId : String) (b : Obj) (hj : Jars C own h) (hd : NewJar C own d) :
    Jars C own (adopt x d issId b h).2 := by
  unfold adopt
  rw [Py.bind_run]
  rcases hr : onNew d (doProviderInfo x) h with ⟨r, g1⟩
  have h1 : Jars C own g1 := by
    have : g1 = (onNew d (doProviderInfo x) h).2 := by rw [hr]
    rw [this]; exact jars_share hj _ _
  cases r with
  | error e => exact h1
  | ok r =>
    obtain ⟨f1, -⟩ := onNew_run hr
    obtain ⟨j1, j2⟩ := jar_providerInfo hd f1
    simp only [Py.modify_bind_run]
    rw [Py.bind_run]
    have h2 : Jars C own { g1 with hash2issuer := Dict.set g1.hash2issuer issId r.2.ctx.issuer } := ⟨h1.clients, h1.configs, h1.own⟩
    rcases hs : onNew r.2 (register x b) { g1 with hash2issuer := Dict.set g1.hash2issuer issId r.2.ctx.issuer } with ⟨s, g2⟩
    have h3 : Jars C own g2 := by
      have : g2 = (onNew r.2 (register x b) { g1 with hash2issuer := Dict.set g1.hash2issuer issId r.2.ctx.issuer }).2 := by rw [hs]
      rw [this]; exact jars_share h2 _ _
    cases s with
    | error e => exact h3
    | ok s =>
      obtain ⟨f3, -⟩ := onNew_run hs
      simp only [Py.modify_bind_run, Py.pure_run]
      exact jars_set h3 (jar_register j1 j2 f3)

theorem jars_setup (x : Ext) (issId user : String) (b : Obj) (hj : Jars C own h) : Jars C own (clientSetup x issId user b h).2 := by
  unfold clientSetup
  split
  · exact hj
  · split
    · unfold doWebfinger
      rw [Py.bind_run, Py.bind_run]
      obtain ⟨h1, q1⟩ := jars_initClient x "" hj
      rcases hr : initClient x "" h with ⟨r, g1⟩
      rw [hr] at h1 q1
      cases r with
      | error e => exact h1
      | ok d =>
        simp only
        rw [Py.bind_run]
        rcases hr2 : onNew d (doRequest x .webfinger [] {} [("resource", .str user)]) g1 with ⟨r2, g2⟩
        have h2 : Jars C own g2 := by
          have : g2 = (onNew d (doRequest x .webfinger [] {} [("resource", .str user)]) g1).2 := by rw [hr2]
          rw [this]; exact jars_share h1 _ _
        cases r2 with
        | error e => exact h2
        | ok r2 =>
          simp only [Py.pure_run, Py.read_bind_run]
          split
          · exact h2
          · refine jars_adopt _ _ _ _ h2 ?_
            obtain ⟨f1, -⟩ := onNew_run hr2
            have hk := keepJar_webfinger x [] {} [("resource", .str user)] d
            rw [f1] at hk
            obtain ⟨cc, a1, a2, a3, a4⟩ := q1 d rfl
            exact ⟨cc, by rw [hk.cfg]; exact a1, hk.info.trans a2, hk.reg.trans a3, hk.keys.trans a4⟩
    · rw [Py.read_bind_run]
      split
      · exact hj
      · rw [Py.bind_run]
        obtain ⟨h1, q1⟩ := jars_initClient x issId hj
        rcases hr : initClient x issId h with ⟨r, g1⟩
        rw [hr] at h1 q1
        cases r with
        | error e => exact h1
        | ok d => exact jars_adopt _ _ _ _ h1 (q1 d rfl)

theorem jars_session {α : Type} (hj : Jars C own h) {s k : String} {m : Py Client α} (hf : Frame (Local k) m) :
    Jars C own (onSession s m h).2 := by
  unfold onSession
  cases hr : sessionIssuer h s with
  | error e => exact hj
  | ok j => exact jars_onClient hj fun d => (hf d).setUp

theorem jars_exec (hj : Jars C own h) (xc : Ext × Call) : Jars C own (exec xc.1 xc.2 h).2 := by
  obtain ⟨x, call⟩ := xc
  cases call with
  | begin issId user req b =>
    show Jars C own (begin_ x issId user req b h).2
    unfold begin_
    rw [Py.bind_run]
    have h0 := jars_setup x issId user b hj
    rcases hs : clientSetup x issId user b h with ⟨r, h1⟩
    rw [hs] at h0
    cases r with
    | error e => exact h0
    | ok j => exact jars_onClient h0 (setUp_initAuthorization x req b)
  | finalize j r b =>
    refine jars_onClient hj (j := j) (m := finalizeClient x j r b) fun d => ?_
    have := finalizeClient_setup x j r b d
    exact ⟨this.ctx, this.cfg⟩
  | getTokens s => exact jars_session hj (local_getTokens x s)
  | refresh s sc => exact jars_session hj (local_refresh x s sc)
  | userInfo s t => exact jars_session hj (local_userInfo x s t)
  | hasActive s => exact jars_session hj (s := s) (k := s) (m := ask (hasActive x s)) (Frame.ask _)
  | validToken s => exact jars_session hj (s := s) (k := s) (m := ask (validAccessToken x s)) (Frame.ask _)
  | logout s u => exact jars_session hj (local_logout x s u)
  | close s j u =>
    show Jars C own (close x s j u h).2
    unfold close
    split
    · exact jars_onClient hj fun d => (local_logout x s u d).setUp
    · exact jars_session hj (local_logout x s u)
  | clear s =>
    show Jars C own (clearSession s h).2
    unfold clearSession onSession
    cases hr : sessionIssuer h s with
    | error e => exact hj
    | ok j => exact jars_onClient hj fun d => ⟨SameSetup.refl _, rfl⟩
  | backchannel j info => exact jars_onClient hj (j := j) (m := ask (backchannelLogout x info)) fun d => FrameRel.refl _

theorem jars_run (l : List (Ext × Call)) : ∀ {h : Handler}, Jars C own h → Jars C own (run l h) := by
  induction l with
  | nil => intro h hj; exact hj
  | cons xc l ih => intro h hj; exact ih (jars_exec hj xc)

theorem jars_new (hn : h.issuer2rp = []) : Jars h.configs h.keyLoads h :=
  ⟨fun i c hc => (by rw [hn] at hc; cases hc), fun n cc hc => ⟨cc, hc, fun _ _ _ => rfl⟩, rfl⟩

end Handler
end Verif

namespace Verif.Props
open Verif StateInterface Service Handler Spec.Keys

/-! ## C103 -/

/-- **C103.**  Whatever calls are made of a new handler, the key jar of every client it keeps holds exactly: the handler's keys,
the keys named in the client's configuration, the keys of the metadata it fetched - filed under the issuer it takes the provider
for - and the secret it was given when it registered, filed under `''` and its own name; and perhaps a copy of its own keys under
its own name. -/
theorem C103_whose_keys (h0 : Handler) (hnew : h0.issuer2rp = []) (l : List (Ext × Call)) (i : String) (c : Client)
    (hc : Dict.get? (run l h0).issuer2rp i = some c) :
    ∃ cc, Dict.get? h0.configs c.cfg = some cc ∧ Jar h0.keyLoads cc.config c :=
  (jars_run l (jars_new hnew)).clients i c hc

/-- **C103.**  A client has no keys of anybody but its provider and itself, unless the owner of the keys was configured: nothing
another provider sends, to this client or to another one of the handler, can put keys there. -/
theorem C103_no_foreign_keys (h0 : Handler) (hnew : h0.issuer2rp = []) (l : List (Ext × Call)) (i : String) (c : Client)
    (hc : Dict.get? (run l h0).issuer2rp i = some c) (owner : String)
    (h1 : owner ≠ c.ctx.issuer) (h2 : owner ≠ "") (h3 : owner ≠ c.ctx.clientId)
    (h4 : ∀ ld ∈ h0.keyLoads, ld.1 ≠ owner)
    (h5 : ∀ n cc iss u, Dict.get? h0.configs n = some cc → ¬ ConfiguredKey cc.config iss (owner, "url", u)) :
    ∀ ld ∈ c.ctx.keyLoads, ld.1 ≠ owner := by
  intro ld hld hown
  obtain ⟨cc, hcc, hj⟩ := C103_whose_keys h0 hnew l i c hc
  rcases hj.only ld hld with h | h | h | h | h
  · exact h4 ld h hown
  · cases h with
    | secret s => exact h2 hown.symm
    | ownFile => exact h2 hown.symm
    | url o urls ow u a1 a2 a3 => subst hown; exact h5 _ cc c.ctx.issuer u hcc (.url o urls _ u a1 a2 a3)
    | providerUrl p o urls ow u a0 a1 a2 a3 => subst hown; exact h5 _ cc c.ctx.issuer u hcc (.providerUrl p o urls _ u a0 a1 a2 a3)
    | providerFile => exact h1 hown.symm
    | providerPem => exact h1 hown.symm
  · cases h with
    | uri => exact h1 hown.symm
    | keys => exact h1 hown.symm
  · cases h with
    | secret o s a1 =>
      rcases a1 with a1 | a1
      · exact h2 (hown.symm.trans a1)
      · exact h3 (hown.symm.trans a1)
  · cases h with
    | copy => exact h3 hown.symm

/-- **C103.**  The keys the provider publishes in the metadata that were fetched can be used: they are filed under the issuer whose
ID Tokens the client accepts. -/
theorem C103_published_keys_held (h0 : Handler) (hnew : h0.issuer2rp = []) (l : List (Ext × Call)) (i : String) (c : Client)
    (hc : Dict.get? (run l h0).issuer2rp i = some c)
    (hdisc : ∀ cc pi, Dict.get? h0.configs c.cfg = some cc → Dict.get? cc.config "provider_info" = some (.obj pi) → pi = []) (v : Val)
    (hv : Dict.get? c.ctx.providerInfo "jwks_uri" = some v) : (c.ctx.issuer, "jwks_uri", v) ∈ c.ctx.keyLoads := by
  obtain ⟨cc, hcc, hj⟩ := C103_whose_keys h0 hnew l i c hc
  exact hj.all _ (Or.inr (Or.inr (Or.inl (.uri v (fun pi hp => hdisc cc pi hcc hp) hv))))

/-! ### Examples, and what the full claims miss -/

/-- The circumstances of a setup with other bodies of the answers. -/
def keysWorld (bodies : Dict Obj) : Ext := { settingUp with
  deser := fun _ _ _ i => match i with
    | .text t => match Dict.get? bodies t with
      | some o => .ok o
      | none => World.parse i
    | _ => World.parse i }

/-- A provider that publishes its keys. -/
def withKeys : Dict Obj := [("metadata", World.metadata ++ [("jwks_uri", .str "https://op.example/jwks")])]

/-- A handler with a key of its own. -/
def keyHandler : Handler := { World.handler with keyLoads := [("", "file", .str "own.json")] }

/-- The jar of a client that fetched metadata and registered. -/
example : (Dict.get? (run [(keysWorld withKeys, .begin "https://op.example" "" [] [])] keyHandler).issuer2rp "https://op.example").map
    (fun c => c.ctx.keyLoads) = some [("", "file", .str "own.json"), ("https://op.example", "jwks_uri", .str "https://op.example/jwks"),
      ("client1", "copy", .str ""), ("", "secret", .str "secret1"), ("client1", "secret", .str "secret1")] := by
  decide +kernel

/-- Keys of every configured kind. -/
def confWithKeys : Obj := [("client_secret", .str "s"), ("client_id", .str "me"),
  ("keys", .obj [("file", .obj [("rsa", .list [.str "a.pem"])]), ("url", .obj [("https://as.example", .str "https://as.example/jwks")])]),
  ("provider_info", .obj (World.metadata ++ [("keys", .obj [("file", .obj [("jwks", .str "op.json")])])]))]

/-- A handler that knows the provider by its configuration. -/
def configuredHandler : Handler := { keyHandler with
  configs := [("https://op.example", { World.conf with config := confWithKeys ++ World.conf.config })] }

example : (Dict.get? (run [(keysWorld withKeys, .begin "https://op.example" "" [] [])] configuredHandler).issuer2rp "https://op.example").map
    (fun c => c.ctx.keyLoads) = some [("", "secret", .str "s"), ("", "rsa", .str "a.pem"), ("https://as.example", "url", .str "https://as.example/jwks"),
      ("", "file", .str "own.json"), ("https://op.example", "file", .str "op.json")] := by
  decide +kernel

/-- Full claim fails: the keys of a provider whose metadata is configured are not loaded from the `jwks_uri` of that metadata, so
that none of its ID Tokens can be verified. -/
theorem C103_configured_jwks_uri_violated :
    let conf := { World.conf with config := [("client_id", .str "me"), ("provider_info", .obj (World.metadata ++
      [("jwks_uri", .str "https://op.example/jwks")]))] ++ World.conf.config }
    let h := { World.handler with configs := [("https://op.example", conf)] }
    (clientSetup settingUp "https://op.example" "" [] h).1.toOption = some "https://op.example" ∧
    (Dict.get? (clientSetup settingUp "https://op.example" "" [] h).2.issuer2rp "https://op.example").map
      (fun c => (Dict.get? c.ctx.providerInfo "jwks_uri", c.ctx.keyLoads)) = some (some (.str "https://op.example/jwks"), []) := by
  decide +kernel

/-- Full claim fails: a provider can choose the name of another issuer as the name of the client; the secret it hands out is then
a key of that issuer for this client. -/
theorem C103_client_named_like_issuer_violated :
    let x := keysWorld [("registered", [("client_id", .str "https://other.example"), ("client_secret", .str "secret1")])]
    (Dict.get? (clientSetup x "https://op.example" "" [] World.handler).2.issuer2rp "https://op.example").map
      (fun c => decide (("https://other.example", "secret", Val.str "secret1") ∈ c.ctx.keyLoads)) = some true := by
  decide +kernel

end Verif.Props
