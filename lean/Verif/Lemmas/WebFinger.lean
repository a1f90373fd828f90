import Verif.Model.WebFinger
/-!
# Lemmas about WebFinger
-/

namespace Verif.WebFinger
open Verif

/-- The characters that end the authority of a URL. -/
def Clean (a : List Char) : Prop := '/' ∉ a ∧ '?' ∉ a ∧ '#' ∉ a

theorem cutL_fst_prefix (c : Char) (s : List Char) : (Str.cutL c s).1 <+: s := by
  induction s with
  | nil => simp [Str.cutL]
  | cons d s ih =>
    simp only [Str.cutL]; split
    · exact List.nil_prefix
    · exact (List.cons_prefix_cons).2 ⟨rfl, ih⟩

theorem splitL_infix (c : Char) (s : List Char) :
    (∀ w, (Str.splitL c s).head? = some w → w <+: s) ∧ ∀ w ∈ Str.splitL c s, w <:+: s := by
  induction s with
  | nil => simp [Str.splitL]
  | cons d s ih =>
    simp only [Str.splitL]
    split
    · constructor
      · intro w hw; simp at hw; subst hw; exact List.nil_prefix
      · intro w hw
        rcases List.mem_cons.1 hw with rfl | hw
        · exact List.nil_infix
        · exact (ih.2 w hw).trans (List.suffix_cons d s).isInfix
    · cases hs : Str.splitL c s with
      | nil => exact absurd hs (Str.splitL_ne_nil c s)
      | cons v vs =>
        have hv : v <+: s := ih.1 v (by rw [hs]; rfl)
        constructor
        · intro w hw; simp at hw; subst hw; exact (List.cons_prefix_cons).2 ⟨rfl, hv⟩
        · intro w hw
          rcases List.mem_cons.1 hw with rfl | hw
          · exact ((List.cons_prefix_cons).2 ⟨rfl, hv⟩).isInfix
          · exact (ih.2 w (by rw [hs]; exact List.mem_cons_of_mem _ hw)).trans
              (List.suffix_cons d s).isInfix

theorem splitL_get_infix (c : Char) (s : List Char) (i : Nat) :
    ((Str.splitL c s)[i]?.getD []) <:+: s := by
  cases h : (Str.splitL c s)[i]? with
  | none => exact List.nil_infix
  | some w => exact (splitL_infix c s).2 w (List.mem_of_getElem? h)

theorem splitL_get_noSep (c : Char) (s : List Char) (i : Nat) :
    c ∉ ((Str.splitL c s)[i]?.getD []) := by
  have key : ∀ w ∈ Str.splitL c s, c ∉ w := by
    induction s with
    | nil => simp [Str.splitL]
    | cons d s ih =>
      simp only [Str.splitL]
      split
      · intro w hw
        rcases List.mem_cons.1 hw with rfl | hw
        · simp
        · exact ih w hw
      · next hd =>
        cases hs : Str.splitL c s with
        | nil => exact absurd hs (Str.splitL_ne_nil c s)
        | cons v vs =>
          intro w hw
          rcases List.mem_cons.1 hw with rfl | hw
          · simp only [List.mem_cons, not_or]
            exact ⟨fun h => hd h.symm, ih v (by rw [hs]; simp)⟩
          · exact ih w (by rw [hs]; exact List.mem_cons_of_mem _ hw)
  cases h : (Str.splitL c s)[i]? with
  | none => simp
  | some w => exact key w (List.mem_of_getElem? h)

theorem clean_infix {a b : List Char} (h : a <:+: b) (hb : Clean b) : Clean a :=
  ⟨fun h' => hb.1 (h.subset h'), fun h' => hb.2.1 (h.subset h'), fun h' => hb.2.2 (h.subset h')⟩

theorem takeNetloc_spec (s : List Char) :
    s = (takeNetloc s).1 ++ (takeNetloc s).2 ∧ Clean (takeNetloc s).1 := by
  induction s with
  | nil => simp [takeNetloc, Clean]
  | cons c s ih =>
    simp only [takeNetloc]
    split
    · simp [Clean]
    · next h =>
      simp only [not_or] at h
      refine ⟨by rw [List.cons_append, ← ih.1], ?_⟩
      obtain ⟨h1, h2, h3⟩ := ih.2
      simp only [Clean, List.mem_cons, not_or]
      exact ⟨⟨fun h' => h.1 h'.symm, h1⟩, ⟨fun h' => h.2.1 h'.symm, h2⟩, ⟨fun h' => h.2.2 h'.symm, h3⟩⟩

theorem takeNetloc_clean (a rest : List Char) (ha : Clean a)
    (hr : rest = [] ∨ ∃ c t, rest = c :: t ∧ (c = '/' ∨ c = '?' ∨ c = '#')) :
    takeNetloc (a ++ rest) = (a, rest) := by
  induction a with
  | nil =>
    rcases hr with rfl | ⟨c, t, rfl, hc⟩
    · rfl
    · simp only [List.nil_append, takeNetloc, if_pos hc]
  | cons c a ih =>
    obtain ⟨h1, h2, h3⟩ := ha
    simp only [List.mem_cons, not_or] at h1 h2 h3
    have hn : ¬ (c = '/' ∨ c = '?' ∨ c = '#') := by
      rintro (h | h | h)
      · exact h1.1 h.symm
      · exact h2.1 h.symm
      · exact h3.1 h.symm
    rw [List.cons_append, takeNetloc, if_neg hn, ih ⟨h1.2, h2.2, h3.2⟩]

theorem splitScheme_suffix (s : List Char) : (splitScheme s).2 <:+: s := by
  unfold splitScheme
  split
  · next c pre rest h =>
    split
    · have := Str.cutL_spec ':' s
      rw [h] at this
      simp only at this
      exact ⟨(c :: pre) ++ [':'], [], by rw [this]; simp⟩
    · exact List.infix_refl s
  · exact List.infix_refl s

theorem splitNetloc_spec {s a r : List Char} (h : splitNetloc s = .ok (a, r)) :
    Clean a ∧ a <:+: s ∧ r <:+: s := by
  unfold splitNetloc at h
  split at h
  · next t =>
    simp only at h
    split at h
    · simp at h
    · simp only [Except.ok.injEq] at h
      have hs := takeNetloc_spec t
      rw [h] at hs
      refine ⟨hs.2, ⟨['/', '/'], r, ?_⟩, ⟨'/' :: '/' :: a, [], ?_⟩⟩
      · rw [List.append_assoc, ← hs.1]; rfl
      · rw [List.append_nil]
        show '/' :: '/' :: (a ++ r) = _
        rw [← hs.1]
  · simp only [Except.ok.injEq, Prod.mk.injEq] at h
    obtain ⟨rfl, rfl⟩ := h
    exact ⟨by simp [Clean], List.nil_infix, List.infix_refl _⟩

/-- Everything `urlsplit` promises about netloc and path. -/
theorem urlsplit_spec {s : List Char} {p : Parts} (h : urlsplit s = .ok p) :
    Clean p.netloc ∧ p.netloc <:+: s ∧ p.path <:+: s ∧ '?' ∉ p.path ∧ '#' ∉ p.path := by
  unfold urlsplit at h
  cases hn : splitNetloc (splitScheme s).2 with
  | error e => rw [hn] at h; simp at h
  | ok ar =>
    obtain ⟨a, r⟩ := ar
    rw [hn] at h
    simp only [Except.ok.injEq] at h
    obtain ⟨h1, h2, h3⟩ := splitNetloc_spec hn
    subst h
    have hs := splitScheme_suffix s
    have e1 := cutL_fst_prefix '#' r
    have e2 := cutL_fst_prefix '?' (Str.cutL '#' r).1
    refine ⟨h1, h2.trans hs, (e2.isInfix.trans (e1.isInfix.trans h3)).trans hs, ?_, ?_⟩
    · exact Str.cutL_fst_noSep '?' _
    · intro h'
      exact Str.cutL_fst_noSep '#' r (e2.subset h')

theorem splitScheme_https (t : List Char) :
    splitScheme ("https://".toList ++ t) = ("https".toList, '/' :: '/' :: t) := by
  have h : Str.cutL ':' ("https://".toList ++ t) = ("https".toList, some ('/' :: '/' :: t)) := by
    have := Str.cutL_append ':' "https".toList ('/' :: '/' :: t) (by decide)
    exact this
  unfold splitScheme
  rw [h]
  rfl

/-- The netloc of an `https://` text is what stands before the first of `/?#`. -/
theorem urlsplit_https {t : List Char} {p : Parts} (h : urlsplit ("https://".toList ++ t) = .ok p) :
    p.netloc = (takeNetloc t).1 := by
  unfold urlsplit at h
  rw [splitScheme_https] at h
  simp only [splitNetloc] at h
  split at h
  · next hh => split at hh <;> simp at h
  · next a r hh =>
    split at hh
    · simp at hh
    · simp only [Except.ok.injEq] at hh h
      rw [← h, hh]

theorem httpsNetloc_spec {t a : List Char} (h : httpsNetloc t = .ok a) :
    a = (takeNetloc t).1 := by
  unfold httpsNetloc at h
  cases hu : urlsplit ("https://".toList ++ t) with
  | error e => rw [hu] at h; simp [Except.map] at h
  | ok p =>
    rw [hu] at h
    simp only [Except.map, Except.ok.injEq] at h
    rw [← h, urlsplit_https hu]

theorem takeNetloc_prefix (t : List Char) : (takeNetloc t).1 <+: t :=
  ⟨(takeNetloc t).2, (takeNetloc_spec t).1.symm⟩

theorem takeNetloc_query (p q : List Char) : (takeNetloc (p ++ '?' :: q)).1 <+: p := by
  induction p with
  | nil => simp [takeNetloc]
  | cons c p ih =>
    rw [List.cons_append, takeNetloc]
    split
    · exact List.nil_prefix
    · exact (List.cons_prefix_cons).2 ⟨rfl, ih⟩

theorem map_eq_ok {α β : Type} {x : Except Exc α} {f : α → β} {b : β} (h : x.map f = .ok b) :
    ∃ a, x = .ok a ∧ f a = b := by
  cases x with
  | error e => simp [Except.map] at h
  | ok a => exact ⟨a, rfl, by simpa [Except.map] using h⟩

theorem noScheme_spec {res : List Char} {p : Parts} {a r : List Char}
    (hp : urlsplit res = .ok p) (h : noScheme res p = .ok (a, r)) : Clean a ∧ a <:+: res := by
  obtain ⟨_, _, hpath, hq, hf⟩ := urlsplit_spec hp
  unfold noScheme at h
  split at h
  · simp at h
  · split at h
    · split at h
      · obtain ⟨x, hx, he⟩ := map_eq_ok h
        obtain ⟨rfl, _⟩ := Prod.mk.inj he
        rw [httpsNetloc_spec hx]
        exact ⟨(takeNetloc_spec res).2, (takeNetloc_prefix res).isInfix⟩
      · next hsl =>
        simp only [not_or] at hsl
        have hclean : Clean p.path := ⟨hsl.1, hq, hf⟩
        simp only [Except.ok.injEq, Prod.mk.injEq] at h
        obtain ⟨h, _⟩ := h
        split at h
        · subst h
          exact ⟨clean_infix (splitL_get_infix _ _ _) hclean, (splitL_get_infix _ _ _).trans hpath⟩
        · subst h; exact ⟨hclean, hpath⟩
    · split at h
      · obtain ⟨x, hx, he⟩ := map_eq_ok h
        obtain ⟨rfl, _⟩ := Prod.mk.inj he
        rw [httpsNetloc_spec hx]
        exact ⟨(takeNetloc_spec _).2, (takeNetloc_query _ _).isInfix.trans hpath⟩
      · obtain ⟨x, hx, he⟩ := map_eq_ok h
        obtain ⟨rfl, _⟩ := Prod.mk.inj he
        rw [httpsNetloc_spec hx]
        exact ⟨(takeNetloc_spec _).2, (takeNetloc_prefix _).isInfix.trans hpath⟩

theorem withScheme_spec {res : List Char} {p : Parts} {a r : List Char}
    (hp : urlsplit res = .ok p) (h : withScheme res p = .ok (a, r)) : Clean a ∧ a <:+: res := by
  obtain ⟨hnet, hneti, hpath, hq, hf⟩ := urlsplit_spec hp
  unfold withScheme at h
  split at h
  · obtain ⟨x, hx, he⟩ := map_eq_ok h
    obtain ⟨rfl, _⟩ := Prod.mk.inj he
    rw [urlsplit_https hx]
    exact ⟨(takeNetloc_spec res).2, (takeNetloc_prefix res).isInfix⟩
  · split at h
    · simp at h
    · split at h
      · simp only at h
        split at h
        · simp only [Except.ok.injEq, Prod.mk.injEq] at h
          obtain ⟨rfl, _⟩ := h
          have i1 := splitL_get_infix '#' (afterAt ((Str.splitL '?'
            ((Str.splitL '/' p.path)[0]?.getD []))[0]?.getD [])) 0
          have i2 : afterAt ((Str.splitL '?' ((Str.splitL '/' p.path)[0]?.getD []))[0]?.getD []) <:+:
            ((Str.splitL '?' ((Str.splitL '/' p.path)[0]?.getD []))[0]?.getD []) := splitL_get_infix _ _ _
          have i3 := splitL_get_infix '?' ((Str.splitL '/' p.path)[0]?.getD []) 0
          have i4 := splitL_get_infix '/' p.path 0
          refine ⟨⟨?_, ?_, splitL_get_noSep _ _ _⟩, i1.trans (i2.trans (i3.trans (i4.trans hpath)))⟩
          · intro h'
            exact splitL_get_noSep '/' p.path 0 ((i1.trans (i2.trans i3)).subset h')
          · intro h'
            exact splitL_get_noSep '?' _ 0 ((i1.trans i2).subset h')
        · simp at h
      · simp only [Except.ok.injEq, Prod.mk.injEq] at h
        obtain ⟨rfl, _⟩ := h
        exact ⟨hnet, hneti⟩

theorem normalise_spec {res a r : List Char} (h : normalise res = .ok (a, r)) :
    Clean a ∧ a <:+: res := by
  unfold normalise at h
  cases res with
  | nil => simp at h
  | cons c t =>
    simp only at h
    split at h
    · simp at h
    · cases hp : urlsplit (c :: t) with
      | error e => rw [hp] at h; simp at h
      | ok p =>
        rw [hp] at h
        simp only at h
        split at h
        · exact noScheme_spec hp h
        · exact withScheme_spec hp h

end Verif.WebFinger
