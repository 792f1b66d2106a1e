/-
C141  Changing the longitude convention keeps every value at its place on the globe.
-/
import Verif.Model.LonFlip
import Mathlib.Tactic.Linarith

namespace Metcalcpy.Props
open Metcalcpy

theorem positionsWhere_first (p : ℚ → Bool) (A B : List ℚ) (hA : ∀ x ∈ A, p x = true) (hB : ∀ x ∈ B, p x = false) :
    positionsWhere p (A ++ B) = List.range A.length := by
  unfold positionsWhere
  rw [List.length_append, List.range_add, List.filter_append]
  have h1 : (List.range A.length).filter (fun i => p ((A ++ B).getD i 0)) = List.range A.length := by
    apply List.filter_eq_self.mpr
    intro i hi
    rw [List.mem_range] at hi
    simp only [List.getD_eq_getElem?_getD, List.getElem?_append_left hi, List.getElem?_eq_getElem hi, Option.getD_some]
    exact hA _ (List.getElem_mem hi)
  have h2 : ((List.range B.length).map (A.length + ·)).filter (fun i => p ((A ++ B).getD i 0)) = [] := by
    apply List.filter_eq_nil_iff.mpr
    intro i hi
    rw [List.mem_map] at hi
    obtain ⟨j, hj, rfl⟩ := hi
    rw [List.mem_range] at hj
    simp only [List.getD_eq_getElem?_getD, List.getElem?_append_right (Nat.le_add_right _ _), Nat.add_sub_cancel_left,
      List.getElem?_eq_getElem hj, Option.getD_some, hB _ (List.getElem_mem hj)]
    simp
  rw [h1, h2, List.append_nil]

theorem positionsWhere_second (p : ℚ → Bool) (A B : List ℚ) (hA : ∀ x ∈ A, p x = false) (hB : ∀ x ∈ B, p x = true) :
    positionsWhere p (A ++ B) = (List.range B.length).map (A.length + ·) := by
  unfold positionsWhere
  rw [List.length_append, List.range_add, List.filter_append]
  have h1 : (List.range A.length).filter (fun i => p ((A ++ B).getD i 0)) = [] := by
    apply List.filter_eq_nil_iff.mpr
    intro i hi
    rw [List.mem_range] at hi
    simp only [List.getD_eq_getElem?_getD, List.getElem?_append_left hi, List.getElem?_eq_getElem hi, Option.getD_some,
      hA _ (List.getElem_mem hi)]
    simp
  have h2 : ((List.range B.length).map (A.length + ·)).filter (fun i => p ((A ++ B).getD i 0)) =
      (List.range B.length).map (A.length + ·) := by
    apply List.filter_eq_self.mpr
    intro i hi
    rw [List.mem_map] at hi
    obtain ⟨j, hj, rfl⟩ := hi
    rw [List.mem_range] at hj
    simp only [List.getD_eq_getElem?_getD, List.getElem?_append_right (Nat.le_add_right _ _), Nat.add_sub_cancel_left,
      List.getElem?_eq_getElem hj, Option.getD_some]
    exact hB _ (List.getElem_mem hj)
  rw [h1, h2, List.nil_append]

theorem valuesAt_first (A B : List ℚ) : valuesAt (A ++ B) (List.range A.length) = A := by
  unfold valuesAt
  apply List.ext_getElem
  · simp
  · intro i h1 h2
    simp [List.getElem?_append_left h2, List.getElem?_eq_getElem h2]

theorem valuesAt_second (A B : List ℚ) : valuesAt (A ++ B) ((List.range B.length).map (A.length + ·)) = B := by
  unfold valuesAt
  apply List.ext_getElem
  · simp
  · intro i h1 h2
    simp [List.getElem?_append_right, List.getElem?_eq_getElem h2]

theorem npRoll_append {α : Type} (X Y : List α) (hY : 0 < X.length) : npRoll Y.length (X ++ Y) = Y ++ X := by
  unfold npRoll
  have h : Y.length % (X ++ Y).length = Y.length := Nat.mod_eq_of_lt (by simp; omega)
  have h2 : (X ++ Y).length - Y.length = X.length := by simp
  rw [h, h2, List.drop_left, List.take_left]

/-- What lonFlip computes on a coordinate of negative longitudes `A` followed by the others `B`. -/
theorem lonFlip_to360 {α : Type} (shared : Bool) (A B : List ℚ) (row : List α) (hA : ∀ x ∈ A, x < 0)
    (hB : ∀ x ∈ B, 0 ≤ x) (hne : A ≠ []) (hlen : row.length = (A ++ B).length) :
    lonFlip shared (A ++ B) row =
      .ok (B ++ (valuesAt (if shared then B ++ (A ++ B).drop B.length else A ++ B) (List.range A.length)).map (· + 360),
        npRoll A.length row) := by
  unfold lonFlip twoWrites
  rw [if_neg (by simp [hne]), if_neg (by simp [hlen]), if_pos]
  · rw [positionsWhere_first _ A B (by simpa using hA) (by simpa using hB),
      positionsWhere_second _ A B (by simpa using hA) (by simpa using hB)]
    simp only [valuesAt_second, List.map_id, List.length_map, List.length_range]
  · obtain ⟨a, ha⟩ := List.exists_mem_of_ne_nil A hne
    rw [List.any_eq_true]
    exact ⟨a, List.mem_append_left _ ha, by simpa using hA a ha⟩

/-- What lonFlip computes on longitudes below 180, `A`, followed by the others `B`. -/
theorem lonFlip_to180 {α : Type} (shared : Bool) (A B : List ℚ) (row : List α) (hA : ∀ x ∈ A, 0 ≤ x ∧ x < 180)
    (hB : ∀ x ∈ B, 180 ≤ x) (hne : A ++ B ≠ []) (hlen : row.length = (A ++ B).length) :
    lonFlip shared (A ++ B) row =
      .ok (B.map (· - 360) ++
        valuesAt (if shared then B.map (· - 360) ++ (A ++ B).drop B.length else A ++ B) (List.range A.length),
        npRoll A.length row) := by
  unfold lonFlip twoWrites
  rw [if_neg hne, if_neg (by simp [hlen]), if_neg]
  · rw [positionsWhere_first (fun x => decide (x < 180)) A B (fun x hx => by simpa using (hA x hx).2) (by simpa using hB),
      positionsWhere_second (fun x => decide (180 ≤ x)) A B (fun x hx => by simpa using (hA x hx).2) (by simpa using hB)]
    simp only [valuesAt_second, List.map_id, List.length_map, List.length_range]
  · rw [Bool.not_eq_true, List.any_eq_false]
    intro x hx
    rw [List.mem_append] at hx
    rcases hx with hx | hx
    · simpa using (hA x hx).1
    · have := hB x hx
      simp; linarith

/-- C141, first direction, proved for `lon.values` a copy and as many western as eastern longitudes: every value keeps its
longitude, negative ones increased by 360, and longitudes come in the order 0 to 360. -/
theorem C141_to360_partial {α : Type} (A B : List ℚ) (rA rB : List α) (hA : ∀ x ∈ A, x < 0) (hB : ∀ x ∈ B, 0 ≤ x)
    (hne : A ≠ []) (hhalf : A.length = B.length) (hrA : rA.length = A.length) (hrB : rB.length = B.length) :
    lonFlip false (A ++ B) (rA ++ rB) = .ok (B ++ A.map (· + 360), rB ++ rA) := by
  rw [lonFlip_to360 false A B _ hA hB hne (by simp [hrA, hrB])]
  have h1 : A.length = rB.length := by omega
  rw [if_neg (by simp), valuesAt_first, h1, npRoll_append]
  rw [hrA]
  exact List.length_pos_iff.mpr hne

/-- C141, second direction, under the same conditions. -/
theorem C141_to180_partial {α : Type} (A B : List ℚ) (rA rB : List α) (hA : ∀ x ∈ A, 0 ≤ x ∧ x < 180)
    (hB : ∀ x ∈ B, 180 ≤ x) (hne : A ≠ []) (hhalf : A.length = B.length) (hrA : rA.length = A.length)
    (hrB : rB.length = B.length) :
    lonFlip false (A ++ B) (rA ++ rB) = .ok (B.map (· - 360) ++ A, rB ++ rA) := by
  rw [lonFlip_to180 false A B _ hA hB (by simp [hne]) (by simp [hrA, hrB])]
  have h1 : A.length = rB.length := by omega
  rw [if_neg (by simp), valuesAt_first, h1, npRoll_append]
  rw [hrA]
  exact List.length_pos_iff.mpr hne

/-- Both directions in turn restore such a global grid. -/
theorem C141_round_trip_partial {α : Type} (A B : List ℚ) (rA rB : List α) (hA : ∀ x ∈ A, -180 ≤ x ∧ x < 0)
    (hB : ∀ x ∈ B, 0 ≤ x ∧ x < 180) (hne : A ≠ []) (hhalf : A.length = B.length) (hrA : rA.length = A.length)
    (hrB : rB.length = B.length) :
    (lonFlip false (A ++ B) (rA ++ rB) >>= fun r => lonFlip false r.1 r.2) = .ok (A ++ B, rA ++ rB) := by
  rw [C141_to360_partial A B rA rB (fun x hx => (hA x hx).2) (fun x hx => (hB x hx).1) hne hhalf hrA hrB]
  have hBne : B ≠ [] := by
    intro h
    rw [h] at hhalf
    exact hne (List.length_eq_zero_iff.mp hhalf)
  have h := C141_to180_partial B (A.map (· + 360)) rB rA hB (by
    intro x hx
    rw [List.mem_map] at hx
    obtain ⟨a, ha, rfl⟩ := hx
    linarith [(hA a ha).1]) hBne (by simp [hhalf]) hrB (by simp [hrA])
  show lonFlip false (B ++ A.map (· + 360)) (rB ++ rA) = _
  rw [h, List.map_map]
  have : A.map ((· - 360) ∘ (· + 360)) = A := by
    conv_rhs => rw [← List.map_id A]
    apply List.map_congr_left
    intro x _
    simp
  rw [this]

/-- C141 is false when the numbers of western and eastern longitudes differ: the values are rolled by the wrong number of
places. The value observed at 10 W is reported at 20 E. -/
theorem C141_unequal_counterexample :
    lonFlip false [-10, 0, 10, 20] ["10W", "0", "10E", "20E"] =
      .ok ([0, 10, 20, 350], ["20E", "10W", "0", "10E"]) := by
  decide +kernel

/-- C141 is false when `lon.values` shares the memory of the coordinate: on a global grid the western longitudes are lost
and the eastern ones reported twice, the second time beyond 360. -/
theorem C141_shared_counterexample {α : Type} (A B : List ℚ) (rA rB : List α) (hA : ∀ x ∈ A, x < 0) (hB : ∀ x ∈ B, 0 ≤ x)
    (hne : A ≠ []) (hhalf : A.length = B.length) (hrA : rA.length = A.length) (hrB : rB.length = B.length) :
    lonFlip true (A ++ B) (rA ++ rB) = .ok (B ++ B.map (· + 360), rB ++ rA) := by
  rw [lonFlip_to360 true A B _ hA hB hne (by simp [hrA, hrB])]
  have h1 : A.length = rB.length := by omega
  rw [if_pos rfl]
  conv in List.range A.length => rw [hhalf]
  rw [valuesAt_first, h1, npRoll_append]
  rw [hrA]
  exact List.length_pos_iff.mpr hne

example : lonFlip false [-180, -90, 0, 90] ["a", "b", "c", "d"] = .ok ([0, 90, 180, 270], ["c", "d", "a", "b"]) := by
  decide +kernel

example : lonFlip false [0, 90, 180, 270] ["c", "d", "a", "b"] = .ok ([-180, -90, 0, 90], ["a", "b", "c", "d"]) := by
  decide +kernel

end Metcalcpy.Props
