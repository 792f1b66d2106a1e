/-
C23  Longitude conversion is a bijection onto [-180,180) up to sorting.
C24  Longitude re-indexing returns a permutation that sorts the new longitudes.
-/
import Verif.Model.Lon
import Mathlib.Data.List.Sort
import Mathlib.Data.List.Forall2
import Mathlib.Data.List.Perm.Basic
import Mathlib.Tactic.Linarith
import Mathlib.Tactic.FieldSimp
import Mathlib.Tactic.Ring

namespace Metcalcpy.Props
open Metcalcpy

theorem npMod_range (a m : ℚ) (hm : 0 < m) : 0 ≤ npMod a m ∧ npMod a m < m := by
  unfold npMod
  have h1 := Int.floor_le (a / m)
  have h2 := Int.lt_floor_add_one (a / m)
  rw [le_div_iff₀ hm] at h1
  rw [div_lt_iff₀ hm] at h2
  constructor <;> nlinarith

theorem npSort_perm (l : List ℚ) : (npSort l).Perm l := List.perm_insertionSort _ _

theorem npSort_sorted (l : List ℚ) : (npSort l).Pairwise (· ≤ ·) := by
  exact List.pairwise_insertionSort _ l

/-- Two longitudes denote the same meridian. -/
def SameMeridian (m x y : ℚ) : Prop := ∃ k : ℤ, y = x + m * k

/-- C23: the result is sorted and is a rearrangement of a list that holds, entry by entry, the
representative of the input longitude in [-180,180). -/
theorem C23_convert (lons : List ℚ) :
    (convertLon360To180 lons).Pairwise (· ≤ ·) ∧
    ∃ ys, List.Forall₂ (fun x y => -180 ≤ y ∧ y < 180 ∧ SameMeridian 360 x y) lons ys ∧
      (convertLon360To180 lons).Perm ys := by
  refine ⟨npSort_sorted _, _, ?_, npSort_perm _⟩
  rw [List.forall₂_map_right_iff]
  apply List.forall₂_same.mpr
  intro x _
  have := npMod_range (x + 180) 360 (by norm_num)
  refine ⟨by linarith, by linarith, -⌊(x + 180) / 360⌋, ?_⟩
  simp [npMod]
  ring

/-- C23: same number of longitudes. -/
theorem C23_length (lons : List ℚ) : (convertLon360To180 lons).length = lons.length := by
  simp [convertLon360To180, npSort]

/-- C23: the representative in [-180,180) is unique, so C23_convert determines the result. -/
theorem C23_unique (x y z : ℚ) (hy : -180 ≤ y ∧ y < 180 ∧ SameMeridian 360 x y)
    (hz : -180 ≤ z ∧ z < 180 ∧ SameMeridian 360 x z) : y = z := by
  obtain ⟨y1, y2, k, rfl⟩ := hy
  obtain ⟨z1, z2, j, rfl⟩ := hz
  have h1 : ((k - j : ℤ) : ℚ) < 1 := by push_cast; linarith
  have h2 : (-1 : ℚ) < ((k - j : ℤ) : ℚ) := by push_cast; linarith
  have h3 : k - j < 1 := by exact_mod_cast h1
  have h4 : -1 < k - j := by exact_mod_cast h2
  have : k = j := by omega
  rw [this]

example : convertLon360To180 [0, 90, 180, 270, 359] = [-180, -90, -1, 0, 90] := by decide +kernel

/-- C24: with a positive range, the indices are a permutation of `0..n-1`, the k-th new longitude is the
representative of the input longitude at the k-th index in [-|minlon|, range-|minlon|), and the new
longitudes are sorted. -/
theorem C24_indices (lons : List ℚ) (minlon range : ℚ) (hr : 0 < range) :
    let r := convertLonsIndices lons minlon range
    r.1.Pairwise (· ≤ ·) ∧ r.2.Perm (List.range lons.length) ∧
    List.Forall₂ (fun y i => ∃ x, lons[i]? = some x ∧ -|minlon| ≤ y ∧ y < range - |minlon| ∧
      SameMeridian range x y) r.1 r.2 := by
  set f : ℚ → ℚ := fun lon => npMod (lon + |minlon|) range - |minlon| with hf
  set new := lons.map f with hnew
  set ps := new.zipIdx.insertionSort (fun a b => a.1 ≤ b.1) with hps
  have hperm : ps.Perm new.zipIdx := List.perm_insertionSort _ _
  have hsort : ps.Pairwise (fun a b => a.1 ≤ b.1) := by
    haveI : Std.Total (fun a b : ℚ × ℕ => a.1 ≤ b.1) := ⟨fun a b => le_total a.1 b.1⟩
    haveI : IsTrans (ℚ × ℕ) (fun a b => a.1 ≤ b.1) := ⟨fun a b c h1 h2 => le_trans h1 h2⟩
    exact List.pairwise_insertionSort _ new.zipIdx
  have hmem : ∀ p ∈ ps, new[p.2]? = some p.1 := by
    intro p hp
    have := hperm.mem_iff.mp hp
    rw [List.mem_zipIdx_iff_getElem?] at this
    exact this
  have h1 : (convertLonsIndices lons minlon range).1 = ps.map Prod.fst := by
    simp only [convertLonsIndices, npArgsort]
    rw [← hf, ← hnew, ← hps, List.map_map]
    apply List.map_congr_left
    intro p hp
    simp [List.getD_eq_getElem?_getD, hmem p hp]
  have h2 : (convertLonsIndices lons minlon range).2 = ps.map Prod.snd := by
    simp only [convertLonsIndices, npArgsort]
    rw [← hf, ← hnew, ← hps]
  refine ⟨?_, ?_, ?_⟩
  · rw [h1, List.pairwise_map]; exact hsort
  · rw [h2]
    have := hperm.map Prod.snd
    simpa [List.zipIdx_map_snd, hnew, List.range_eq_range'] using this
  · rw [h1, h2, List.forall₂_map_left_iff, List.forall₂_map_right_iff]
    apply List.forall₂_same.mpr
    intro p hp
    have := hmem p hp
    rw [hnew, List.getElem?_map] at this
    obtain ⟨x, hx, hxp⟩ := Option.map_eq_some_iff.mp this
    have hm := npMod_range (x + |minlon|) range hr
    refine ⟨x, hx, ?_, ?_, -⌊(x + |minlon|) / range⌋, ?_⟩
    · rw [← hxp, hf]; simp only; linarith
    · rw [← hxp, hf]; simp only; linarith
    · rw [← hxp, hf]; simp only [npMod]; push_cast; ring

example : convertLonsIndices [0, 90, 180, 270] (-180) 360 = ([-180, -90, 0, 90], [2, 3, 0, 1]) := by
  decide +kernel

end Metcalcpy.Props
