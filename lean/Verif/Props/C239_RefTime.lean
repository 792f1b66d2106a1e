/-
C239  The reference time taken from the name of the output file.
-/
import Verif.Model.RefTime
import Verif.Props.C215_RegimeFile

namespace Metcalcpy.Props
open Metcalcpy Spec

theorem dropWhile_firstDot (pre rest : List Char) (h : '.' ∉ pre) : (pre ++ '.' :: rest).dropWhile (· != '.') = '.' :: rest := by
  induction pre with
  | nil => simp
  | cons a pre ih =>
    rw [List.cons_append, List.dropWhile_cons_of_pos]
    · exact ih fun hm => h (by simp [hm])
    · simp only [bne_iff_ne, ne_eq]
      rintro rfl
      exact h (by simp)

theorem takeWhile_digits (a rest : List Char) (h : ∀ c ∈ a, c.isDigit = true) :
    (a ++ rest).takeWhile (· != '.') = a ++ rest.takeWhile (· != '.') := by
  induction a with
  | nil => rfl
  | cons c a ih =>
    rw [List.cons_append, List.takeWhile_cons_of_pos, ih fun x hx => h x (by simp [hx]), List.cons_append]
    simp only [bne_iff_ne, ne_eq]
    rintro rfl
    exact absurd (h '.' (by simp)) (by decide)

/-- C239 (what holds): for an output file whose path has its first dot before ten digits of year, month, day and hour, the reference
time written is the number of seconds from 1970 to that hour less the offset of the local time of the machine. -/
theorem C239_reference_partial (zone : ℕ × ℕ × ℕ → ℕ → ℤ) (n h : ℕ) (pre yt mt dt ht rest : List Char)
    (hpre : '.' ∉ pre) (hc : ∀ c ∈ yt ++ mt ++ dt ++ ht, c.isDigit = true)
    (l1 : yt.length = 4) (l2 : mt.length = 2) (l3 : dt.length = 2) (l4 : ht.length = 2)
    (hy : (dayAfter^[n] (1970, 1, 1)).1 ≤ 9999)
    (e1 : decimalNumber yt = (dayAfter^[n] (1970, 1, 1)).1) (e2 : decimalNumber mt = (dayAfter^[n] (1970, 1, 1)).2.1)
    (e3 : decimalNumber dt = (dayAfter^[n] (1970, 1, 1)).2.2) (e4 : decimalNumber ht = h) (hh : h < 24) :
    refTimeOfFile zone (pre ++ '.' :: (yt ++ mt ++ dt ++ ht ++ rest)) =
      .ok ((n : ℤ) * 86400 + h * 3600 - zone (dayAfter^[n] (1970, 1, 1)) h) := by
  have hday : IsDay (1970, 1, 1) := by unfold IsDay monthDays; decide
  obtain ⟨o1, o2⟩ := ordinal_iterate n (1970, 1, 1) hday
  generalize dayAfter^[n] (1970, 1, 1) = t at *
  have n4 : ht ≠ [] := fun h0 => by simp [h0] at l4
  have ht1 : refTimeText (pre ++ '.' :: (yt ++ mt ++ dt ++ ht ++ rest)) =
      .ok (yt ++ mt ++ dt ++ (ht ++ rest.takeWhile (· != '.'))) := by
    unfold refTimeText
    rw [if_pos (by simp), dropWhile_firstDot _ _ hpre, List.drop_one, List.tail_cons, takeWhile_digits _ _ hc]
    simp
  have hs : IsStamp (yt ++ mt ++ dt ++ (ht ++ rest.takeWhile (· != '.'))) t :=
    ⟨yt, mt, dt, _, rfl, l1, l2, l3, fun c hx => hc c (by simp at hx ⊢; tauto), e1, e2, e3⟩
  have hd := (stampDate_ok _ t hs o2 hy).1
  have h8 : ((yt ++ mt ++ dt ++ (ht ++ rest.takeWhile (· != '.'))).drop 8).take 2 = ht := by
    have : (yt ++ mt ++ dt).length = 8 := by simp [l1, l2, l3]
    rw [← this, List.drop_left, ← l4, List.take_left]
  have hr : refSeconds zone (yt ++ mt ++ dt ++ (ht ++ rest.takeWhile (· != '.'))) =
      .ok ((n : ℤ) * 86400 + h * 3600 - zone t h) := by
    unfold refSeconds
    rw [h8, intOf_digits ht n4 fun c hx => hc c (by simp [hx]), e4]
    unfold stampDate at hd
    rw [stampParts_eq yt mt dt _ l1 l2 l3] at hd
    have hp := stampParts_eq yt mt dt (ht ++ rest.takeWhile (· != '.')) l1 l2 l3
    unfold stampParts at hp
    obtain ⟨p1, p2, p3⟩ : _ ∧ _ ∧ _ := ⟨congrArg Prod.fst hp, congrArg (fun p => p.2.1) hp, congrArg (fun p => p.2.2) hp⟩
    dsimp only at p1 p2 p3
    rw [p1, p2, p3]
    have n1 : yt ≠ [] := fun h0 => by simp [h0] at l1
    have n2 : mt ≠ [] := fun h0 => by simp [h0] at l2
    have n3 : dt ≠ [] := fun h0 => by simp [h0] at l3
    have i1 := intOf_digits yt n1 (fun c hx => hc c (by simp [hx]))
    have i2 := intOf_digits mt n2 (fun c hx => hc c (by simp [hx]))
    have i3 := intOf_digits dt n3 (fun c hx => hc c (by simp [hx]))
    dsimp only at hd
    rw [i1, i2, i3] at hd ⊢
    simp only [bind, Except.bind] at hd ⊢
    rw [hd]
    dsimp only
    rw [if_pos ⟨by omega, by omega⟩, o1, Int.toNat_natCast]
    simp only [pure, Except.pure]
    congr 1
    push_cast
    ring
  unfold refTimeOfFile
  rw [ht1]
  simp only [bind, Except.bind]
  rw [hr]

/-- The thirteenth hour of the second of January 1970. -/
example : refTimeOfFile (fun _ _ => 0) "/out/gfs.1970010213.nc".toList = .ok (86400 + 13 * 3600) := by
  have := C239_reference_partial (fun _ _ => 0) 1 13 "/out/gfs".toList "1970".toList "01".toList "02".toList "13".toList ".nc".toList
    (by decide) (by decide) rfl rfl rfl rfl (by decide) (by decide) (by decide) (by decide) (by decide) (by decide)
  simpa using this

/-- C239, failure: on a machine an hour east of Greenwich the time is an hour early; with a dot in the directory nothing is written
and an AttributeError ends the program. -/
theorem C239_reference_counterexample :
    refTimeOfFile (fun _ _ => 3600) "/out/gfs.1970010213.nc".toList = .ok (86400 + 12 * 3600) ∧
    refTimeOfFile (fun _ _ => 0) "./out/gfs.1970010213.nc".toList = .error .attributeError := by
  constructor
  · have := C239_reference_partial (fun _ _ => 3600) 1 13 "/out/gfs".toList "1970".toList "01".toList "02".toList "13".toList ".nc".toList
      (by decide) (by decide) rfl rfl rfl rfl (by decide) (by decide) (by decide) (by decide) (by decide) (by decide)
    simpa using this
  · decide +kernel

end Metcalcpy.Props
