/-!
# Python string helpers

Python `str` is modelled by `String`; the helpers work on the list of code points.
-/

namespace Verif.Str

/-- `s.startswith(p)` -/
def startsWith (s p : String) : Bool := p.toList.isPrefixOf s.toList

/-- `s.endswith(p)` -/
def endsWith (s p : String) : Bool := p.toList.isSuffixOf s.toList

/-- `p in s` on code point lists -/
def containsL (p : List Char) : List Char → Bool
  | [] => p.isPrefixOf []
  | c :: s => p.isPrefixOf (c :: s) || containsL p s

/-- `p in s` -/
def contains (s p : String) : Bool := containsL p.toList s.toList

/-- `s.split(c)` for a one-character separator, on code point lists -/
def splitL (c : Char) : List Char → List (List Char)
  | [] => [[]]
  | d :: s =>
    if d = c then [] :: splitL c s
    else match splitL c s with
      | [] => [[d]]
      | w :: ws => (d :: w) :: ws

/-- `s.split(c)` for a one-character separator -/
def split (s : String) (c : Char) : List String := (splitL c s.toList).map String.ofList

/-- Split at the first occurrence of `c`: the part before, and the part after if `c` occurs. -/
def cutL (c : Char) : List Char → List Char × Option (List Char)
  | [] => ([], none)
  | d :: s => if d = c then ([], some s) else
      let r := cutL c s
      (d :: r.1, r.2)

/-- `s[1:]` -/
def drop1 (s : String) : String := String.ofList (s.toList.drop 1)

/-- `s.lower()`, on ASCII letters -/
def lower (s : String) : String := String.ofList (s.toList.map Char.toLower)

/-- `s.upper()`, on ASCII letters -/
def upper (s : String) : String := String.ofList (s.toList.map Char.toUpper)

theorem containsL_iff (p s : List Char) : containsL p s = true ↔ p <:+: s := by
  induction s with
  | nil =>
    simp only [containsL, List.isPrefixOf_iff_prefix, List.prefix_nil, List.infix_nil]
  | cons c s ih =>
    simp only [containsL, Bool.or_eq_true, List.isPrefixOf_iff_prefix, ih, List.infix_cons_iff]

theorem startsWith_iff (s p : String) :
    startsWith s p = true ↔ ∃ t : String, s = p ++ t := by
  unfold startsWith
  rw [List.isPrefixOf_iff_prefix]
  constructor
  · rintro ⟨t, ht⟩
    refine ⟨String.ofList t, String.toList_inj.1 ?_⟩
    simp [ht]
  · rintro ⟨t, rfl⟩; simp

theorem endsWith_iff (s p : String) :
    endsWith s p = true ↔ ∃ t : String, s = t ++ p := by
  unfold endsWith
  rw [List.isSuffixOf_iff_suffix]
  constructor
  · rintro ⟨t, ht⟩
    refine ⟨String.ofList t, String.toList_inj.1 ?_⟩
    simp [ht]
  · rintro ⟨t, rfl⟩; simp

theorem splitL_ne_nil (c : Char) (s : List Char) : splitL c s ≠ [] := by
  induction s with
  | nil => simp [splitL]
  | cons d s ih => simp only [splitL]; split; · simp
                   · split <;> simp

/-- A word without the separator, followed by the separator. -/
theorem splitL_append_sep (c : Char) (w s : List Char) (h : c ∉ w) :
    splitL c (w ++ c :: s) = w :: splitL c s := by
  induction w with
  | nil => simp [splitL]
  | cons d w ih =>
    have hd : d ≠ c := by rintro rfl; simp at h
    have hw : c ∉ w := fun h' => h (List.mem_cons_of_mem _ h')
    simp [splitL, hd, ih hw]

theorem splitL_noSep (c : Char) (w : List Char) (h : c ∉ w) : splitL c w = [w] := by
  induction w with
  | nil => simp [splitL]
  | cons d w ih =>
    have hd : d ≠ c := by rintro rfl; simp at h
    have hw : c ∉ w := fun h' => h (List.mem_cons_of_mem _ h')
    simp [splitL, hd, ih hw]

/-- `c.join(words)` -/
def joinL (c : Char) : List (List Char) → List Char
  | [] => []
  | [w] => w
  | w :: ws => w ++ c :: joinL c ws

theorem splitL_joinL (c : Char) (ws : List (List Char)) (h : ∀ w ∈ ws, c ∉ w) (hne : ws ≠ []) :
    splitL c (joinL c ws) = ws := by
  induction ws with
  | nil => exact absurd rfl hne
  | cons w ws ih =>
    cases ws with
    | nil => exact splitL_noSep c w (h w (by simp))
    | cons w' ws =>
      simp only [joinL]
      rw [splitL_append_sep c w _ (h w (by simp)),
        ih (fun x hx => h x (List.mem_cons_of_mem _ hx)) (by simp)]

theorem cutL_append (c : Char) (w s : List Char) (h : c ∉ w) :
    cutL c (w ++ c :: s) = (w, some s) := by
  induction w with
  | nil => simp [cutL]
  | cons d w ih =>
    have hd : d ≠ c := by rintro rfl; simp at h
    have hw : c ∉ w := fun h' => h (List.mem_cons_of_mem _ h')
    simp [cutL, hd, ih hw]

theorem cutL_noSep (c : Char) (w : List Char) (h : c ∉ w) : cutL c w = (w, none) := by
  induction w with
  | nil => simp [cutL]
  | cons d w ih =>
    have hd : d ≠ c := by rintro rfl; simp at h
    have hw : c ∉ w := fun h' => h (List.mem_cons_of_mem _ h')
    simp [cutL, hd, ih hw]

theorem cutL_fst_noSep (c : Char) (s : List Char) : c ∉ (cutL c s).1 := by
  induction s with
  | nil => simp [cutL]
  | cons d s ih =>
    simp only [cutL]; split
    · simp
    · next h => simp only [List.mem_cons, not_or]; exact ⟨fun h' => h h'.symm, ih⟩

/-- reassembling a cut -/
theorem cutL_spec (c : Char) (s : List Char) :
    s = match (cutL c s).2 with
      | none => (cutL c s).1
      | some t => (cutL c s).1 ++ c :: t := by
  induction s with
  | nil => simp [cutL]
  | cons d s ih =>
    by_cases h : d = c
    · simp [cutL, h]
    · cases h2 : (cutL c s).2 with
      | none => rw [h2] at ih; simp only at ih; simp only [cutL, if_neg h, h2]; rw [← ih]
      | some t =>
        rw [h2] at ih; simp only at ih; simp only [cutL, if_neg h, h2]; rw [List.cons_append, ← ih]

end Verif.Str
