/-
C239  Reference time from the name of the output file: which paths fail, and on which machines it is right.
-/
import Verif.Props.C239_RefTime
import Verif.Lemmas.IntText

namespace Metcalcpy.Props
open Metcalcpy Spec

/-- Characters a whole number may begin with in `int(text)`. -/
def StartsNumber (c : Char) : Prop := c.isDigit = true ∨ c ∈ [' ', '\t', '\n', '\r', '-', '+']

instance (c : Char) : Decidable (StartsNumber c) := inferInstanceAs (Decidable (_ ∨ _))

theorem digitText_head (text digits : List Char) (h : DigitText text digits) : ∃ a rest, text = a :: rest ∧ a.isDigit = true := by
  cases h with
  | one h => exact ⟨_, _, rfl, h⟩
  | digit h _ => exact ⟨_, _, rfl, h⟩
  | underscore h _ => exact ⟨_, _, rfl, h⟩

theorem intOf_start (c : Char) (t : List Char) (h : ¬ StartsNumber c) : intOf (c :: t) = .error .valueError := by
  unfold intOf
  have : pyInt? (String.ofList (c :: t)) = none := by
    rw [pyInt?_none_iff]
    rintro z ⟨before, after, text, digits, hb, hd, hs⟩
    have hl : (String.ofList (c :: t)).toList = c :: t := by simp
    rw [hl] at hs
    cases before with
    | cons b before =>
      have hcb : c = b := by
        rcases hs with ⟨hs, _⟩ | ⟨hs, _⟩ | ⟨hs, _⟩ <;> simpa using congrArg List.head? hs
      apply h
      have := hb b (by simp)
      rw [← hcb] at this
      right
      simp only [List.mem_cons, List.not_mem_nil, or_false]
      tauto
    | nil =>
      rcases hs with ⟨hs, _⟩ | ⟨hs, _⟩ | ⟨hs, _⟩
      · obtain ⟨a, rest, rfl, ha⟩ := digitText_head text digits hd
        have : c = a := by simpa using congrArg List.head? hs
        exact h (Or.inl (this ▸ ha))
      · have : c = '+' := by simpa using congrArg List.head? hs
        exact h (Or.inr (by simp [this]))
      · have : c = '-' := by simpa using congrArg List.head? hs
        exact h (Or.inr (by simp [this]))
  rw [this]

/-- C239, extent: when the first dot of the whole path is followed by a character no number begins with, as in `./` and `../`, the
program ends with an AttributeError, whatever the name of the file. -/
theorem C239_first_dot (zone : ℕ × ℕ × ℕ → ℕ → ℤ) (pre : List Char) (c : Char) (rest : List Char) (hpre : '.' ∉ pre) (hc : ¬ StartsNumber c) :
    refTimeOfFile zone (pre ++ '.' :: c :: rest) = .error .attributeError := by
  unfold refTimeOfFile
  have e : refTimeText (pre ++ '.' :: c :: rest) = .ok ((c :: rest).takeWhile (· != '.')) := by
    unfold refTimeText
    rw [if_pos (by simp), dropWhile_firstDot pre _ hpre]
    rfl
  have e2 : ∀ t, (t = [] ∨ ∃ r, t = c :: r) → refSeconds zone t = .error .valueError := by
    rintro t (rfl | ⟨r, rfl⟩)
    · rfl
    · unfold refSeconds
      rw [List.take_succ_cons, intOf_start c _ hc]
      rfl
  have e3 := e2 ((c :: rest).takeWhile (· != '.')) (by
    rw [List.takeWhile_cons]
    split
    · exact Or.inr ⟨_, rfl⟩
    · exact Or.inl rfl)
  rw [e]
  simp only [bind, Except.bind]
  rw [e3]

/-- A relative path. -/
example (zone : ℕ × ℕ × ℕ → ℕ → ℤ) : refTimeOfFile zone "../out/gfs.1970010213.nc".toList = .error .attributeError :=
  C239_first_dot zone [] '.' "/out/gfs.1970010213.nc".toList (by simp) (by decide)

/-- A dot in a directory. -/
example (zone : ℕ × ℕ × ℕ → ℕ → ℤ) : refTimeOfFile zone "/home/u.name/gfs.1970010213.nc".toList = .error .attributeError :=
  C239_first_dot zone "/home/u".toList 'n' "ame/gfs.1970010213.nc".toList (by decide) (by decide)

/-- C239, extent: so it does when the path has no dot at all. -/
theorem C239_no_dot (zone : ℕ × ℕ × ℕ → ℕ → ℤ) (path : List Char) (h : '.' ∉ path) : refTimeOfFile zone path = .error .attributeError := by
  unfold refTimeOfFile refTimeText
  rw [if_neg h]
  rfl

/-- No date. -/
example (zone : ℕ × ℕ × ℕ → ℕ → ℤ) : refTimeOfFile zone "/out/gfs".toList = .error .attributeError := C239_no_dot zone _ (by decide)

/-- C239, exactly when it holds: with no dot before the one in front of the date, the time is right if and only if local time is universal
time at that hour. -/
theorem C239_exactly_partial (zone : ℕ × ℕ × ℕ → ℕ → ℤ) (n h : ℕ) (pre yt mt dt ht rest : List Char)
    (hpre : '.' ∉ pre) (hc : ∀ c ∈ yt ++ mt ++ dt ++ ht, c.isDigit = true)
    (l1 : yt.length = 4) (l2 : mt.length = 2) (l3 : dt.length = 2) (l4 : ht.length = 2)
    (hy : (dayAfter^[n] (1970, 1, 1)).1 ≤ 9999)
    (e1 : decimalNumber yt = (dayAfter^[n] (1970, 1, 1)).1) (e2 : decimalNumber mt = (dayAfter^[n] (1970, 1, 1)).2.1)
    (e3 : decimalNumber dt = (dayAfter^[n] (1970, 1, 1)).2.2) (e4 : decimalNumber ht = h) (hh : h < 24) :
    refTimeOfFile zone (pre ++ '.' :: (yt ++ mt ++ dt ++ ht ++ rest)) = .ok ((n : ℤ) * 86400 + h * 3600) ↔
      zone (dayAfter^[n] (1970, 1, 1)) h = 0 := by
  rw [C239_reference_partial zone n h pre yt mt dt ht rest hpre hc l1 l2 l3 l4 hy e1 e2 e3 e4 hh]
  simp only [Except.ok.injEq]
  constructor
  · intro h; linarith
  · intro h; rw [h]; ring

/-- An hour east of Greenwich it is wrong. -/
example : refTimeOfFile (fun _ _ => 3600) "/out/gfs.1970010213.nc".toList ≠ .ok (86400 + 13 * 3600) := by
  have := (C239_exactly_partial (fun _ _ => 3600) 1 13 "/out/gfs".toList "1970".toList "01".toList "02".toList "13".toList ".nc".toList
    (by decide) (by decide) rfl rfl rfl rfl (by decide) (by decide) (by decide) (by decide) (by decide) (by decide)).not.mpr (by decide)
  simpa using this

end Metcalcpy.Props
