import Mathlib.Data.List.Permutation
import Verif.Model.Registration
import Verif.Spec.Registration
/-!
# Lemmas about registration
-/

namespace Verif.Registration
open Verif Verif.Spec.Registration

theorem insertW_perm (w : List Char) (ws : List (List Char)) : (insertW w ws).Perm (w :: ws) := by
  induction ws with
  | nil => exact List.Perm.refl _
  | cons v vs ih =>
    simp only [insertW]
    split
    · exact List.Perm.refl _
    · exact (List.Perm.cons v ih).trans (List.Perm.swap w v vs)

theorem sortW_perm (ws : List (List Char)) : (sortW ws).Perm ws := by
  induction ws with
  | nil => exact List.Perm.refl _
  | cons w ws ih => exact (insertW_perm w _).trans (List.Perm.cons w ih)

theorem splitL_words_noSep (c : Char) (s : List Char) : ∀ w ∈ Str.splitL c s, c ∉ w := by
  induction s with
  | nil => simp [Str.splitL]
  | cons d s ih =>
    simp only [Str.splitL]
    split
    · intro w hw
      rcases List.mem_cons.1 hw with rfl | hw
      · simp
      · exact ih w hw
    · next hd =>
      cases hs : Str.splitL c s with
      | nil => exact absurd hs (Str.splitL_ne_nil c s)
      | cons v vs =>
        intro w hw
        rcases List.mem_cons.1 hw with rfl | hw
        · simp only [List.mem_cons, not_or]
          exact ⟨fun h => hd h.symm, ih v (by rw [hs]; simp)⟩
        · exact ih w (by rw [hs]; exact List.mem_cons_of_mem _ hw)

/-- The key determines the words up to order. -/
theorem rtKey_perm {rt k : String} (h : rtKey rt = k) :
    (Str.splitL ' ' k.toList).Perm (Str.splitL ' ' rt.toList) := by
  have hp := sortW_perm (Str.splitL ' ' rt.toList)
  have h1 : Str.joinL ' ' (sortW (Str.splitL ' ' rt.toList)) = k.toList := by
    rw [← h, rtKey]; simp
  rw [← h1, Str.splitL_joinL]
  · exact hp
  · intro w hw
    exact splitL_words_noSep ' ' rt.toList w (hp.mem_iff.1 hw)
  · intro h0
    rw [h0] at hp
    exact Str.splitL_ne_nil ' ' rt.toList hp.nil_eq.symm

theorem words_perm {rt k : String} (h : rtKey rt = k) : (words k).Perm (words rt) :=
  (rtKey_perm h).map String.ofList

theorem needed_perm {g : String} {a b : List String} (h : a.Perm b) : Needed g a ↔ Needed g b := by
  unfold Needed; rw [h.mem_iff, h.mem_iff, h.mem_iff]

theorem splitL_ofList_inj {l : List String} (rt : String) (h : words rt = l) :
    Str.splitL ' ' rt.toList = l.map String.toList := by
  rw [← h, words, Str.split, List.map_map]
  have : (String.toList ∘ String.ofList) = id := by funext x; simp
  rw [this, List.map_id]

/-- Every order of the words of a known response type gives the key of the table. -/
theorem rtKey_known {rt : String} {ws : List String} (hk : ws ∈ known) (hp : (words rt).Perm ws) :
    rtKey rt = String.ofList (Str.joinL ' ' (ws.map String.toList)) := by
  have hmem : words rt ∈ ws.permutations' := List.mem_permutations'.2 hp
  unfold rtKey
  rw [splitL_ofList_inj rt rfl]
  congr 2
  revert hmem
  generalize words rt = w
  intro hmem
  have key : ∀ ws ∈ known, ∀ w ∈ ws.permutations', sortW (w.map String.toList) = ws.map String.toList := by
    decide +kernel
  exact key ws hk w hmem

/-- The table, characterised. -/
theorem rt2gt_iff (rt g : String) :
    (∃ gt, Dict.get? rt2gt (rtKey rt) = some gt ∧ g ∈ gt) ↔
      (∃ ws ∈ known, (words rt).Perm ws) ∧ Needed g (words rt) := by
  constructor
  · rintro ⟨gt, h, hg⟩
    have hmem := Dict.get?_eq_some_mem h
    have hp := words_perm (rt := rt) rfl
    have key : ∀ p ∈ rt2gt, words p.1 ∈ known ∧ ∀ g ∈ p.2, Needed g (words p.1) := by
      unfold Needed; decide +kernel
    obtain ⟨h1, h2⟩ := key _ hmem
    exact ⟨⟨_, h1, hp.symm⟩, (needed_perm hp).1 (h2 g hg)⟩
  · rintro ⟨⟨ws, hk, hp⟩, hn⟩
    rw [rtKey_known hk hp]
    rw [needed_perm hp] at hn
    have key : ∀ ws ∈ known, ∀ g ∈ ["authorization_code", "implicit"], Needed g ws →
        ∃ gt ∈ [["authorization_code"], ["implicit"], ["authorization_code", "implicit"]],
          Dict.get? rt2gt (String.ofList (Str.joinL ' ' (ws.map String.toList))) = some gt ∧ g ∈ gt := by
      unfold Needed; decide +kernel
    have hg : g ∈ ["authorization_code", "implicit"] := by
      rcases hn with ⟨h, _⟩ | ⟨h, _⟩ <;> simp [h]
    obtain ⟨gt, _, h1, h2⟩ := key ws hk g hg hn
    exact ⟨gt, h1, h2⟩

theorem mem_union (g : String) (gt r : List String) : g ∈ union r gt ↔ g ∈ r ∨ g ∈ gt := by
  unfold union
  induction gt generalizing r with
  | nil => simp
  | cons x gt ih =>
    rw [List.foldl_cons, ih]
    by_cases hx : x ∈ r
    · rw [if_pos hx, List.mem_cons]
      constructor
      · rintro (h | h)
        · exact Or.inl h
        · exact Or.inr (Or.inr h)
      · rintro (h | rfl | h)
        · exact Or.inl h
        · exact Or.inl hx
        · exact Or.inr h
    · rw [if_neg hx, List.mem_append, List.mem_singleton, List.mem_cons, or_assoc]

theorem mem_grants (g : String) (rts : List String) :
    g ∈ responseTypesToGrantTypes rts ↔
      ∃ rt ∈ rts, ∃ gt, Dict.get? rt2gt (rtKey rt) = some gt ∧ g ∈ gt := by
  unfold responseTypesToGrantTypes
  suffices H : ∀ r, g ∈ rts.foldl addGrants r ↔ g ∈ r ∨ ∃ rt ∈ rts, ∃ gt, Dict.get? rt2gt (rtKey rt) = some gt ∧ g ∈ gt by
    rw [H]; simp
  induction rts with
  | nil => simp
  | cons rt rts ih =>
    intro r
    rw [List.foldl_cons, ih]
    unfold addGrants
    cases h : Dict.get? rt2gt (rtKey rt) with
    | none => simp [h]
    | some gt => simp [h, mem_union, or_assoc]

/-! ## fillCallbackUris, addPreferences -/

theorem fill_keep (ctx : Ctx) (k : String) : ∀ (ks : List String) (req : Obj),
    Util.truthyO (Dict.get? req k) = true →
    Dict.get? (fillCallbackUris ctx ks req) k = Dict.get? req k := by
  intro ks
  induction ks with
  | nil => intro req _; rfl
  | cons q ks ih =>
    intro req h
    rw [fillCallbackUris]
    split
    · exact ih req h
    · next hq =>
      have hne : q ≠ k := by rintro rfl; exact hq h
      split
      · next u _ =>
        rw [ih _ (by rw [Dict.get?_set_ne _ _ hne]; exact h), Dict.get?_set_ne _ _ hne]
      · exact ih req h

theorem fill_other (ctx : Ctx) (k : String) : ∀ (ks : List String) (req : Obj), k ∉ ks →
    Dict.get? (fillCallbackUris ctx ks req) k = Dict.get? req k := by
  intro ks
  induction ks with
  | nil => intro req _; rfl
  | cons q ks ih =>
    intro req h
    simp only [List.mem_cons, not_or] at h
    rw [fillCallbackUris]
    split
    · exact ih req h.2
    · split
      · rw [ih _ h.2, Dict.get?_set_ne _ _ (fun h' => h.1 h'.symm)]
      · exact ih req h.2

theorem fill_get (ctx : Ctx) (k : String) : ∀ (ks : List String) (req : Obj), ks.Nodup → k ∈ ks →
    Util.truthyO (Dict.get? req k) = false →
    ∀ u, firstTruthy [Dict.get? ctx.registerArgs k, Dict.get? ctx.callback k] = some u →
    Dict.get? (fillCallbackUris ctx ks req) k = some u := by
  intro ks
  induction ks with
  | nil => intro req _ h; simp at h
  | cons q ks ih =>
    intro req hn hmem hf u hu
    rw [List.nodup_cons] at hn
    rw [fillCallbackUris]
    rcases List.mem_cons.1 hmem with rfl | hmem
    · rw [if_neg (by simp [hf]), hu]
      simp only
      rw [fill_other _ _ _ _ hn.1, Dict.get?_set_self]
    · have hne : q ≠ k := by rintro rfl; exact hn.1 hmem
      split
      · exact ih req hn.2 hmem hf u hu
      · split
        · exact ih _ hn.2 hmem (by rw [Dict.get?_set_ne _ _ hne]; exact hf) u hu
        · exact ih req hn.2 hmem hf u hu

theorem pref_keep (ctx : Ctx) (k : String) (v : Val) : ∀ (ps : List String) (req : Obj),
    Dict.get? req k = some v → Dict.get? (addPreferences ctx ps req) k = some v := by
  intro ps
  induction ps with
  | nil => intro req h; exact h
  | cons p ps ih =>
    intro req h
    rw [addPreferences]
    split
    · exact ih req h
    · next hp =>
      have hne : p ≠ k := by rintro rfl; simp [Dict.has, h] at hp
      split
      · exact ih _ (by rw [Dict.get?_set_ne _ _ hne]; exact h)
      · exact ih req h

/-! ## callbacks -/

/-- The path segment of a callback. -/
def segment : String → Option String
  | "code" => some "/authz_cb/"
  | "implicit" => some "/authz_im_cb/"
  | "form_post" => some "/authz_fp_cb/"
  | "request_uris" => some "/req_uri/"
  | "post_logout_redirect_uris" => some "/session_logout/"
  | "backchannel_logout_uri" => some "/bc_logout/"
  | "frontchannel_logout_uri" => some "/fc_logout/"
  | _ => none

theorem callback_shape {hex base : String} {f : CallbackFlags} {k v : String}
    {w : Val} (h : (k, w) ∈ createCallbacks hex base f) (hw : Spec.Registration.Holds w v) (hk : k ≠ "__hex") :
    ∃ seg, segment k = some seg ∧ v = base ++ seg ++ hex := by
  unfold createCallbacks at h
  simp only [List.mem_append] at h
  rcases h with ((((((h | h) | h) | h) | h) | h) | h) | h
  · simp only [List.mem_singleton, Prod.mk.injEq] at h; exact absurd h.1 hk
  all_goals
    split at h
    · simp only [List.mem_singleton, Prod.mk.injEq] at h
      obtain ⟨rfl, rfl⟩ := h
      simp only [Spec.Registration.Holds, List.mem_singleton, Val.str.injEq] at hw
      subst hw
      exact ⟨_, rfl, rfl⟩
    · simp at h

theorem segment_inj {k1 k2 s1 s2 : String} (h1 : segment k1 = some s1) (h2 : segment k2 = some s2)
    {base h h' : String} (he : base ++ s1 ++ h = base ++ s2 ++ h') : k1 = k2 ∧ h = h' := by
  have hl : s1.toList ++ h.toList = s2.toList ++ h'.toList := by
    have := congrArg String.toList he
    simpa [String.toList_append, List.append_assoc] using this
  unfold segment at h1 h2
  split at h1 <;> first | (exfalso; cases h1; done) | skip
  all_goals (cases h1)
  all_goals (split at h2 <;> first | (exfalso; cases h2; done) | skip)
  all_goals (cases h2)
  all_goals first
    | (refine ⟨rfl, String.toList_inj.1 ?_⟩; simpa using hl)
    | (exfalso; revert hl; simp)

end Verif.Registration
