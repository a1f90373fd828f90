import Verif.Model.RequestUris
import Verif.Props.Asked
import Verif.Props.Registration
/-!
# C93: every provider has redirect URIs of its own
-/

namespace Verif.Props
open Verif Verif.Service Verif.Handler Verif.StateInterface Verif.RequestUris Verif.Registration Verif.Spec.InFlight
open Verif.Spec.Store (KeySpace withoutEmpty)

/-! ## Specification -/

/-- All hashes have the same length (SHA-256 in hexadecimal). -/
def FixedLength (hash : String → String) : Prop := ∀ s t, (hash s).length = (hash t).length

/-- Two texts do not collide. -/
def NoCollision (hash : String → String) (s t : String) : Prop := hash s = hash t → s = t

/-- The provider of a client: the issuer of the metadata, else the one of the context. -/
def ProviderIs (ctx : Ctx) (iss : String) : Prop :=
  Dict.get? ctx.providerInfo "issuer" = some (.str iss) ∨
  (Dict.get? ctx.providerInfo "issuer" = none ∧ ctx.issuer = iss)

theorem hashedIssuer_iff (ctx : Ctx) (iss : String) : hashedIssuer ctx = .ok iss ↔ ProviderIs ctx iss := by
  unfold hashedIssuer ProviderIs
  cases h : Dict.get? ctx.providerInfo "issuer" with
  | none => simp
  | some v => cases v <;> simp [asStr]

theorem append_inj_right_len {a b c d : String} (h : a ++ b = c ++ d) (hl : b.length = d.length) : a = c ∧ b = d := by
  have h' := congrArg String.toList h
  simp only [String.toList_append] at h'
  have := List.append_inj' h' (by simpa [← String.length_toList] using hl)
  exact ⟨String.toList_injective this.1, String.toList_injective this.2⟩

/-- The part before the hash. -/
theorem urlFor_eq (base path hex : String) : urlFor base path hex =
    base ++ ((if Str.startsWith path "/" then "" else "/") ++ path ++ "/") ++ hex := by
  unfold urlFor
  split <;> simp [String.append_assoc]

/-! ## C93 -/

/-- **C93** (made).  The redirect URI made for a client is below its base URL and the path, and is from then on its only
redirect URI; nothing else changes. -/
theorem C93_generated (hash : String → String) (path : String) (ctx : Ctx) (iss : String) (hi : ProviderIs ctx iss) :
    ∃ u, generate hash path ctx = (.ok [u], { ctx with redirectUris := [u] }) ∧
      (∀ p, path = "/" ++ p → ∃ hex, u = ctx.baseUrl ++ "/" ++ p ++ "/" ++ hex) ∧
      ((∀ p, path ≠ "/" ++ p) → ∃ hex, u = ctx.baseUrl ++ "/" ++ path ++ "/" ++ hex) := by
  refine ⟨urlFor ctx.baseUrl path (hash (iss ++ ctx.baseUrl)), ?_, ?_, ?_⟩
  · unfold generate
    rw [(hashedIssuer_iff _ _).2 hi]
  · rintro p rfl
    refine ⟨hash (iss ++ ctx.baseUrl), ?_⟩
    have h : Str.startsWith ("/" ++ p) "/" = true := by
      simp [Str.startsWith, String.toList_append]
    unfold urlFor
    rw [if_pos h]
    simp [String.append_assoc]
  · intro hp
    refine ⟨hash (iss ++ ctx.baseUrl), ?_⟩
    have h : ¬ Str.startsWith path "/" = true := by
      intro h
      unfold Str.startsWith at h
      rw [List.isPrefixOf_iff_prefix] at h
      obtain ⟨t, ht⟩ := h
      refine hp (String.ofList t) (String.toList_injective ?_)
      simp [String.toList_append, ← ht]
    unfold urlFor
    rw [if_neg h]

/-- **C93** (unique).  If the hash does not collide, clients of different providers never get the same redirect URI below the same
base URL, whatever the paths; below the same path, clients with different base URLs do not either. -/
theorem C93_unique (hash : String → String) (hl : FixedLength hash) (path1 path2 : String) (ctx1 ctx2 : Ctx) (iss1 iss2 u : String)
    (h1 : ProviderIs ctx1 iss1) (h2 : ProviderIs ctx2 iss2)
    (hn : NoCollision hash (iss1 ++ ctx1.baseUrl) (iss2 ++ ctx2.baseUrl))
    (g1 : (generate hash path1 ctx1).1 = .ok [u]) (g2 : (generate hash path2 ctx2).1 = .ok [u]) :
    (ctx1.baseUrl = ctx2.baseUrl → iss1 = iss2) ∧ (path1 = path2 → iss1 = iss2 ∧ ctx1.baseUrl = ctx2.baseUrl) := by
  unfold generate at g1 g2
  rw [(hashedIssuer_iff _ _).2 h1] at g1
  rw [(hashedIssuer_iff _ _).2 h2] at g2
  simp only [Except.ok.injEq, List.cons.injEq, and_true, urlFor_eq] at g1 g2
  rw [← g2] at g1
  obtain ⟨e1, e2⟩ := append_inj_right_len g1 (hl _ _)
  have e3 := hn e2
  constructor
  · intro hb
    rw [hb] at e3
    exact (append_inj_right_len e3 rfl).1
  · rintro rfl
    obtain ⟨e4, -⟩ := append_inj_right_len e1 rfl
    rw [e4] at e3
    exact ⟨(append_inj_right_len e3 rfl).1, e4⟩

/-- The redirect URI in the request of a login that was started. -/
def RedirectOf (c' : Client) (k : String) (v : Val) : Prop :=
  ∃ r, getItem c'.db "auth_request" k = .ok r ∧ Dict.get? r "redirect_uri" = some v

/-- **C93** (used).  A login started with a client for which a redirect URI was made asks the provider to answer there, unless the
caller or the configuration names another one. -/
theorem C93_used {K : String → Prop} (hK : KeySpace K) (hash : String → String) (path : String) (c c' : Client) (u url k : String)
    (g : (generate hash path c.ctx).1 = .ok [u]) (hu : u ≠ "") (x : Ext) (hkx : K (x.rnd "init_state")) (hp : PlainConf c.conf)
    (req b : Obj) (hnr : (Dict.keys req).Nodup)
    (hnc : ∀ o, Dict.get? c.ctx.config "request_args" = some (.obj o) → (Dict.keys o).Nodup)
    (hno : NotAskedFor c req "redirect_uri") (hsp : "redirect_uri" ∉ (x.msg .authorization).spaced)
    (h : initAuthorization x req b { c with ctx := (generate hash path c.ctx).2 } = (.ok (url, k), c')) :
    RedirectOf c' k (.str u) := by
  obtain ⟨t⟩ := authTrace hK hkx (c := { c with ctx := (generate hash path c.ctx).2 }) hp h
  have hctx : (generate hash path c.ctx).2 = { c.ctx with redirectUris := [u] } := by
    unfold generate at g ⊢
    cases hi : hashedIssuer c.ctx with
    | error e => rw [hi] at g; cases g
    | ok iss =>
      rw [hi] at g
      injection g with g
      simp only
      rw [g]
  have ha := begun_asks t hnr (by rw [hctx]; exact hnc)
  have hr := ha.redirect u [] ⟨hno.1, by rw [hctx]; exact hno.2⟩ (by rw [hctx]) hu hsp
  refine ⟨withoutEmpty t.r, ?_, ?_⟩
  · unfold getItem
    rw [t.hrecord]
    simp only [Dict.get?_set_self, asItem, Msg.ofDict_eq_withoutEmpty]
  · rw [← Msg.ofDict_eq_withoutEmpty]
    exact Msg.get?_ofDict_some hr (by
      cases he : Msg.emptyVal (.str u) with
      | false => rfl
      | true => rcases (Msg.emptyVal_iff _).1 he with e | e
                · injection e with e; exact absurd e hu
                · cases e)

/-- **C93** (mix-up).  Logins started with clients of different providers below one base URL ask for answers at different redirect
URIs. -/
theorem C93_mix_up {K : String → Prop} (hK : KeySpace K) (hash : String → String) (hl : FixedLength hash) (path : String)
    (x : Nat → Ext) (c c' : Nat → Client) (u url k iss : Nat → String) (req b : Nat → Obj) (v : Nat → Val)
    (g : ∀ n, (generate hash path (c n).ctx).1 = .ok [u n]) (hu : ∀ n, u n ≠ "") (hkx : ∀ n, K ((x n).rnd "init_state"))
    (hp : ∀ n, PlainConf (c n).conf) (hi : ∀ n, ProviderIs (c n).ctx (iss n)) (hnr : ∀ n, (Dict.keys (req n)).Nodup)
    (hnc : ∀ n o, Dict.get? (c n).ctx.config "request_args" = some (.obj o) → (Dict.keys o).Nodup)
    (hno : ∀ n, NotAskedFor (c n) (req n) "redirect_uri") (hsp : ∀ n, "redirect_uri" ∉ ((x n).msg .authorization).spaced)
    (h : ∀ n, initAuthorization (x n) (req n) (b n) { c n with ctx := (generate hash path (c n).ctx).2 } = (.ok (url n, k n), c' n))
    (hb : ∀ n, (c n).ctx.baseUrl = (c 0).ctx.baseUrl) (hv : ∀ n, RedirectOf (c' n) (k n) (v n))
    (hn : ∀ m n, NoCollision hash (iss m ++ (c m).ctx.baseUrl) (iss n ++ (c n).ctx.baseUrl)) :
    ∀ m n, iss m ≠ iss n → v m ≠ v n := by
  have hall : ∀ n, v n = .str (u n) := by
    intro n
    obtain ⟨r, r1, r2⟩ := C93_used hK hash path (c n) (c' n) (u n) (url n) (k n) (g n) (hu n) (x n) (hkx n) (hp n) (req n) (b n) (hnr n)
      (hnc n) (hno n) (hsp n) (h n)
    obtain ⟨q, q1, q2⟩ := hv n
    rw [r1] at q1
    injection q1 with q1
    subst q1
    rw [r2] at q2
    injection q2 with q2
    exact q2.symm
  intro m n hne he
  rw [hall, hall] at he
  injection he with he
  refine hne ((C93_unique hash hl path path (c m).ctx (c n).ctx (iss m) (iss n) (u m) (hi m) (hi n) (hn m n) (g m) ?_).1 ((hb m).trans (hb n).symm))
  rw [he]
  exact g n

/-- **C93** (callbacks).  The callbacks made for registration with different providers have no URL in common, neither
as a callback nor inside a list of callbacks, if the hash does not collide and the seeds have equal length (or are the
same).  A URL that serves twice for one provider is a redirect URI in the list of redirect URIs. -/
theorem C93_callbacks (hash : String → String) (ctx1 ctx2 : Ctx) (ig1 ig2 : List String) (k1 k2 url : String)
    (v1 v2 : Val)
    (hb : ctx1.baseUrl = ctx2.baseUrl) (hs : ctx1.hashSeed.length = ctx2.hashSeed.length)
    (hn : NoCollision hash (ctx1.hashSeed ++ ctx1.issuer) (ctx2.hashSeed ++ ctx2.issuer))
    (h1 : Dict.get? (addCallbacks hash ig1 ctx1).callback k1 = some v1) (u1 : Spec.Registration.Holds v1 url)
    (n1 : k1 ≠ "__hex")
    (h2 : Dict.get? (addCallbacks hash ig2 ctx2).callback k2 = some v2) (u2 : Spec.Registration.Holds v2 url)
    (n2 : k2 ≠ "__hex") :
    ctx1.issuer = ctx2.issuer ∧ (k1 ≠ "redirect_uris" → k2 ≠ "redirect_uris" → k1 = k2) := by
  have key : ∀ ctx ig k v, k ≠ "__hex" → Dict.get? (addCallbacks hash ig ctx).callback k = some v →
      Spec.Registration.Holds v url →
      ∃ k' v', Spec.Registration.Holds v' url ∧ k' ≠ "__hex" ∧ (k ≠ "redirect_uris" → k' = k) ∧ (k', v') ∈
        createCallbacks (hash (ctx.hashSeed ++ ctx.issuer)) ctx.baseUrl (callbackFlags ctx ig) := by
    intro ctx ig k v hk h hu
    have h' : Dict.get? (newCallbacks hash ctx ig) k = some v := h
    unfold newCallbacks at h'
    simp only at h'
    split at h'
    · exact ⟨k, v, hu, hk, fun _ => rfl, Dict.get?_eq_some_mem h'⟩
    · by_cases e : k = "redirect_uris"
      · subst e
        rw [Dict.get?_set_self] at h'
        cases h'
        have hm : Val.str url ∈ redirectUrisOf
            (createCallbacks (hash (ctx.hashSeed ++ ctx.issuer)) ctx.baseUrl (callbackFlags ctx ig)) := hu
        unfold redirectUrisOf at hm
        obtain ⟨⟨k', v'⟩, hp, hv⟩ := List.mem_map.1 hm
        obtain ⟨hp, hd⟩ := List.mem_filter.1 hp
        have hv : v' = Val.str url := hv
        refine ⟨k', v', (by rw [hv]; exact rfl), ?_, fun c => absurd rfl c, hp⟩
        rintro rfl
        simp at hd
      · rw [Dict.get?_set_ne _ _ (Ne.symm e)] at h'
        exact ⟨k, v, hu, hk, fun _ => rfl, Dict.get?_eq_some_mem h'⟩
  obtain ⟨k1', v1', u1', n1', c1, m1⟩ := key _ _ _ _ n1 h1 u1
  obtain ⟨k2', v2', u2', n2', c2, m2⟩ := key _ _ _ _ n2 h2 u2
  rw [hb] at m1
  obtain ⟨e1, e2⟩ := C47_callbacks_separate _ _ _ _ _ _ _ _ _ _ m1 u1' n1' m2 u2' n2'
  have e3 := hn e2
  have h' := congrArg String.toList e3
  simp only [String.toList_append] at h'
  have := List.append_inj h' (by simpa [← String.length_toList] using hs)
  exact ⟨String.toList_injective this.2, fun a b => by rw [← c1 a, ← c2 b, e1]⟩

/-! ## Non-vacuity -/

/-- A hash for the examples: the first eleven characters. -/
def shortHash (s : String) : String := String.ofList ((s.toList ++ List.replicate 11 'x').take 11)

theorem shortHash_fixed : FixedLength shortHash := by
  intro s t
  simp [shortHash, ← String.length_toList]

/-- A context for the examples. -/
def uriCtx (iss : String) (info : Obj) : Ctx := { issuer := iss, baseUrl := "https://rp", providerInfo := info }

/-- Two providers, one of them known by its metadata. -/
example : (generate shortHash "/cb" (uriCtx "https://op1" [])).1 = .ok ["https://rp/cb/https://op1"] ∧
    (generate shortHash "cb" (uriCtx "https://op1" [("issuer", .str "https://op2")])).1 = .ok ["https://rp/cb/https://op2"] ∧
    ProviderIs (uriCtx "https://op1" []) "https://op1" ∧
    ProviderIs (uriCtx "https://op1" [("issuer", .str "https://op2")]) "https://op2" ∧
    NoCollision shortHash ("https://op1" ++ "https://rp") ("https://op2" ++ "https://rp") := by
  refine ⟨by rfl, by rfl, Or.inr ⟨rfl, rfl⟩, Or.inl rfl, ?_⟩
  intro h
  exact absurd h (by decide)

/-- A client set up in the small world. -/
def uriClient : Client :=
  (Dict.get? (clientSetup (World.ext 1000 World.s1 "n1" "") "https://op.example" "" [] World.handler).2.issuer2rp "https://op.example").getD default

/-- A login started with it after its redirect URI was made. -/
def uriLogin : Except Exc (String × String) × Client :=
  initAuthorization (World.ext 1000 World.s1 "n1" "") [] [] { uriClient with ctx := (generate shortHash "/cb" uriClient.ctx).2 }

example : ∃ url, uriLogin.1 = .ok (url, World.s1) ∧ RedirectOf uriLogin.2 World.s1 (.str "https://rp.example/cb/https://op.") := by
  have h1 : (uriLogin.1.toOption.getD ("", "")).2 = World.s1 := by rfl
  have h2 : uriLogin.1.isOk = true := by rfl
  obtain ⟨⟨url, k⟩, h3⟩ : ∃ r, uriLogin.1 = .ok r := by
    cases h : uriLogin.1 with
    | error e => rw [h] at h2; cases h2
    | ok r => exact ⟨r, rfl⟩
  rw [h3] at h1
  have h1 : k = World.s1 := h1
  subst h1
  refine ⟨url, h3, C93_used C10_generated_keys_are_safe shortHash "/cb" uriClient uriLogin.2 _ url World.s1 (by rfl) (by decide)
    (World.ext 1000 World.s1 "n1" "") gen_s1 ?_ [] [] (by decide) ?_ ⟨rfl, ?_⟩ (by decide) (Prod.ext h3 rfl)⟩
  · intro o ho; cases ho
  · intro o ho; cases ho
  · intro o ho; cases ho

end Verif.Props
