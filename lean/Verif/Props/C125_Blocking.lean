/-
C125  A longitude is blocked when, for one of the offsets, heights north of the central latitude exceed those south of it.
C126  The central blocking latitude is smoothed around the circle.
-/
import Verif.Model.Blocking
import Verif.Spec.Blocking
import Mathlib.Data.List.GetD
import Mathlib.Data.List.Rotate
import Mathlib.Algebra.BigOperators.Fin
import Mathlib.Algebra.BigOperators.Field
import Mathlib.Algebra.Order.BigOperators.Group.Finset
import Mathlib.Tactic.Linarith
import Mathlib.Tactic.NormNum
import Mathlib.Tactic.Ring
import Mathlib.Tactic.Positivity
import Mathlib.Tactic.FieldSimp

namespace Metcalcpy.Props
open Metcalcpy Spec

/-! ### C126 -/

theorem truncInt_spec (q : ℚ) : IsIntegerPart q (truncInt q) := by
  unfold truncInt
  split
  · rename_i h; exact .inl ⟨h, Int.floor_le q, Int.lt_floor_add_one q⟩
  · rename_i h
    refine .inr ⟨not_le.mp h, ?_, Int.le_ceil q⟩
    have := Int.ceil_lt_add_one q
    linarith

theorem isIntegerPart_unique {q : ℚ} {v w : ℤ} (h : IsIntegerPart q v) (h' : IsIntegerPart q w) : v = w := by
  rcases h with ⟨h0, h1, h2⟩ | ⟨h0, h1, h2⟩ <;> rcases h' with ⟨g0, g1, g2⟩ | ⟨g0, g1, g2⟩
  · have a : (v : ℚ) < w + 1 := by linarith
    have b : (w : ℚ) < v + 1 := by linarith
    have a' : v < w + 1 := by exact_mod_cast a
    have b' : w < v + 1 := by exact_mod_cast b
    omega
  · linarith
  · linarith
  · have a : (v : ℚ) - 1 < w := by linarith
    have b : (w : ℚ) - 1 < v := by linarith
    have a' : v - 1 < w := by exact_mod_cast a
    have b' : w - 1 < v := by exact_mod_cast b
    omega

theorem circleIndex_ok (n : ℕ) (j : ℤ) (h1 : -(n : ℤ) ≤ j) (h2 : j < 2 * n) :
    circleIndex n j = .ok (j % n).toNat := by
  unfold circleIndex
  have hn : 0 < (n : ℤ) := by omega
  have key : ∀ r : ℤ, 0 ≤ r → r < n → ∀ k : ℤ, j = r + n * k → (j % n).toNat = r.toNat := by
    intro r h0 h1 k hk
    rw [hk, Int.add_mul_emod_self_left, Int.emod_eq_of_lt h0 h1]
  by_cases a : (n : ℤ) ≤ j
  · simp only [if_pos a]
    rw [if_pos ⟨by omega, by omega⟩, key (j - n) (by omega) (by omega) 1 (by ring)]
  · simp only [if_neg a]
    by_cases b : 0 ≤ j
    · rw [if_pos ⟨b, by omega⟩, key j b (by omega) 0 (by ring)]
    · rw [if_neg (by omega), if_pos ⟨h1, by omega⟩, key (j + n) (by omega) (by omega) (-1) (by ring)]

theorem mapM_ok_of {α β : Type} (f : α → Except PyErr β) (g : α → β) : ∀ l : List α, (∀ x ∈ l, f x = .ok (g x)) →
    l.mapM f = .ok (l.map g)
  | [], _ => rfl
  | x :: l, h => by
    rw [List.mapM_cons, h x (by simp), mapM_ok_of f g l (fun y hy => h y (by simp [hy]))]
    rfl

theorem cblSmooth_eq (pts : ℕ) (row : List ℚ) (i : ℕ) (hm : (pts - 1) / 2 ≤ row.length) (hi : i < row.length) :
    cblSmooth pts row i = .ok (truncInt (windowMean (around row) ((pts - 1) / 2) i)) := by
  unfold cblSmooth
  generalize (pts - 1) / 2 = m at *
  simp only
  rw [mapM_ok_of (circleIndex row.length) (fun j => (j % row.length).toNat) _ (by
    intro x hx
    obtain ⟨k, hk, rfl⟩ := List.mem_map.mp hx
    rw [List.mem_range] at hk
    exact circleIndex_ok _ _ (by omega) (by omega))]
  simp only [bind, Except.bind, pure, Except.pure]
  congr 2
  unfold windowMean
  simp only [List.map_map, List.length_map, List.length_range]
  rw [Finset.sum_range, ← List.sum_ofFn]
  congr 1
  · congr 1
    apply List.ext_getElem
    · simp
    · intro k h1 h2; simp only [List.getElem_map, List.getElem_range, Function.comp, List.getElem_ofFn, around]
  · push_cast; ring

/-- C126: the smoothed latitude of a longitude is the integer part of the mean over the `pts` longitudes around it, read
around the circle. -/
theorem C126_smoothed (pts : ℕ) (row : List ℚ) (i : ℕ) (hm : (pts - 1) / 2 ≤ row.length) (hi : i < row.length) :
    ∃ v, cblSmooth pts row i = .ok v ∧ IsIntegerPart (windowMean (around row) ((pts - 1) / 2) i) v :=
  ⟨_, cblSmooth_eq pts row i hm hi, truncInt_spec _⟩

/-- C126: turning the circle turns the smoothed profile. -/
theorem C126_rotation (pts : ℕ) (row : List ℚ) (k i : ℕ) (hm : (pts - 1) / 2 ≤ row.length) (hi : i < row.length) :
    cblSmooth pts (row.rotate k) i = cblSmooth pts row ((i + k) % row.length) := by
  have hn : 0 < row.length := by omega
  rw [cblSmooth_eq pts _ i (by simpa using hm) (by simpa using hi), cblSmooth_eq pts row _ hm (Nat.mod_lt _ hn)]
  congr 2
  unfold windowMean
  congr 1
  apply Finset.sum_congr rfl
  intro j _
  unfold around
  rw [List.length_rotate]
  have hnz : (row.length : ℤ) ≠ 0 := by omega
  have hlt : ((((i : ℤ) - ((pts - 1) / 2 : ℕ) + j) % row.length).toNat) < row.length := by
    have := Int.emod_lt_of_pos ((i : ℤ) - ((pts - 1) / 2 : ℕ) + j) (show (0 : ℤ) < row.length by omega)
    have := Int.emod_nonneg ((i : ℤ) - ((pts - 1) / 2 : ℕ) + j) hnz
    omega
  rw [List.getD_eq_getElem?_getD, List.getElem?_rotate hlt, ← List.getD_eq_getElem?_getD]
  congr 1
  generalize ((pts - 1) / 2 : ℕ) = m
  zify
  rw [Int.toNat_of_nonneg (Int.emod_nonneg _ hnz), Int.toNat_of_nonneg (Int.emod_nonneg _ hnz)]
  push_cast
  rw [Int.emod_add_emod, Int.emod_eq_emod_iff_emod_sub_eq_zero]
  have e := Int.emod_add_mul_ediv ((i : ℤ) + k) row.length
  have : ((i : ℤ) - m + j + k - (((i : ℤ) + k) % row.length - m + j)) = row.length * (((i : ℤ) + k) / row.length) := by
    linarith
  rw [this, Int.mul_emod_right]

/-- C126: for whole latitudes the smoothed latitude stays between the smallest and the largest latitude; a constant profile
is not changed. -/
theorem C126_range (pts : ℕ) (row : List ℚ) (i : ℕ) (lo hi : ℤ) (hm : (pts - 1) / 2 ≤ row.length) (hi' : i < row.length)
    (h : ∀ x ∈ row, (lo : ℚ) ≤ x ∧ x ≤ hi) : ∃ v, cblSmooth pts row i = .ok v ∧ lo ≤ v ∧ v ≤ hi := by
  obtain ⟨v, e, hv⟩ := C126_smoothed pts row i hm hi'
  refine ⟨v, e, ?_⟩
  generalize (pts - 1) / 2 = m at *
  have hmem : ∀ z, (lo : ℚ) ≤ around row z ∧ around row z ≤ hi := by
    intro z
    unfold around
    have hlt : (z % row.length).toNat < row.length := by
      have := Int.emod_lt_of_pos z (show (0 : ℤ) < row.length by omega)
      omega
    rw [List.getD_eq_getElem _ _ hlt]
    exact h _ (List.getElem_mem _)
  have h1 : (lo : ℚ) ≤ windowMean (around row) m i := by
    unfold windowMean
    rw [le_div_iff₀ (by positivity)]
    have := Finset.card_nsmul_le_sum (Finset.range (2 * m + 1)) (fun k => around row ((i : ℤ) - m + k)) (lo : ℚ)
      (fun k _ => (hmem _).1)
    rw [Finset.card_range, nsmul_eq_mul] at this
    push_cast at this
    linarith
  have h2 : windowMean (around row) m i ≤ hi := by
    unfold windowMean
    rw [div_le_iff₀ (by positivity)]
    have := Finset.sum_le_card_nsmul (Finset.range (2 * m + 1)) (fun k => around row ((i : ℤ) - m + k)) (hi : ℚ)
      (fun k _ => (hmem _).2)
    rw [Finset.card_range, nsmul_eq_mul] at this
    push_cast at this
    linarith
  generalize windowMean (around row) m i = q at *
  rcases hv with ⟨h0, g1, g2⟩ | ⟨h0, g1, g2⟩
  · have a : (lo : ℚ) < v + 1 := by linarith
    have b : (v : ℚ) ≤ hi := by linarith
    have a' : lo < v + 1 := by exact_mod_cast a
    exact ⟨by omega, by exact_mod_cast b⟩
  · have a : (lo : ℚ) ≤ v := by linarith
    have b : (v : ℚ) - 1 < hi := by linarith
    have b' : v - 1 < hi := by exact_mod_cast b
    exact ⟨by exact_mod_cast a, by omega⟩

/-- C126: a window wider than twice the circle is rejected. -/
theorem C126_wide (pts : ℕ) (row : List ℚ) (hm : row.length < (pts - 1) / 2) :
    cblSmooth pts row 0 = .error .indexError := by
  unfold cblSmooth
  generalize (pts - 1) / 2 = m at *
  have : (List.range (2 * m + 1)).map (fun k : ℕ => ((0 : ℕ) : ℤ) - m + k) =
      (-(m : ℤ)) :: ((List.range (2 * m)).map fun k : ℕ => ((0 : ℕ) : ℤ) - m + (k + 1 : ℕ)) := by
    rw [List.range_succ_eq_map, List.map_cons, List.map_map]
    congr 1
    simp
  simp only [this, List.mapM_cons]
  have : circleIndex row.length (-(m : ℤ)) = .error .indexError := by
    unfold circleIndex
    simp only
    rw [if_neg (show ¬ (row.length : ℤ) ≤ -m by omega), if_neg (by omega), if_neg (by omega)]
  rw [this]
  rfl

example : cblSmooth 3 [50, 53, 49, 40] 0 = .ok 47 ∧ cblSmooth 3 [50, 53, 49, 40] 3 = .ok 46 := by decide +kernel

/-! ### C125 -/

theorem mapM_id_some (l : List ℚ) : (l.map some).mapM (m := Option) id = some l := by
  induction l with
  | nil => rfl
  | cons x l ih => rw [List.map_cons, List.mapM_cons, ih]; rfl

theorem slice_present (Z : ℤ → ℚ) (col : List Cell) (hcol : ∀ (i : ℕ), i < col.length → col[i]? = some (some (Z (90 - i))))
    (lo len : ℕ) (h : lo + len ≤ col.length) :
    pySlice col lo ((lo : ℤ) + len) = ((List.range len).map fun k : ℕ => Z (90 - (lo + k))).map some := by
  unfold pySlice sliceIndex
  rw [if_neg (by omega), if_neg (by omega)]
  apply List.ext_getElem?
  intro k
  rw [List.getElem?_drop, List.getElem?_map, List.getElem?_map, List.getElem?_take]
  have e1 : min ((lo : ℤ) + len).toNat col.length = lo + len := by omega
  have e2 : min ((lo : ℤ)).toNat col.length = lo := by omega
  rw [e1, e2]
  by_cases hk : k < len
  · rw [if_pos (by omega), hcol _ (by omega), List.getElem?_range hk]
    simp
  · rw [if_neg (by omega), List.getElem?_eq_none (by simpa using hk)]
    rfl

theorem npMean_present (l : List ℚ) (h : l ≠ []) : npMean (l.map some) = some (l.sum / l.length) := by
  unfold npMean
  rw [mapM_id_some]
  simp [h]

theorem truncInt_int (z : ℤ) : truncInt (z : ℚ) = z := by
  unfold truncInt
  split
  · exact Int.floor_intCast z
  · exact Int.ceil_intCast z

theorem blockDiff_eq (Z : ℤ → ℚ) (col : List Cell)
    (hcol : ∀ (i : ℕ), i < col.length → col[i]? = some (some (Z (90 - i)))) (cbl : ℚ) (c : ℤ) (h : ℕ) (l : ℤ)
    (hc : IsIntegerPart (90 - cbl) (90 - c)) (hn : c + l + h ≤ 90) (hs : 90 - (c + l) + h < col.length) :
    blockDiff col cbl (2 * h) l = some (northMean Z (c + l) h - southMean Z (c + l) h) := by
  unfold blockDiff
  have hdc : truncInt (90 - cbl) = 90 - c := isIntegerPart_unique (truncInt_spec _) hc
  simp only [hdc]
  have e1 : ((90 - c : ℤ) : ℚ) - ((2 * (h : ℤ) : ℤ) : ℚ) / 2 - (l : ℚ) = ((90 - c - h - l : ℤ) : ℚ) := by
    push_cast; ring
  have e2 : ((90 - c : ℤ) : ℚ) + ((2 * (h : ℤ) : ℤ) : ℚ) / 2 - (l : ℚ) = ((90 - c + h - l : ℤ) : ℚ) := by
    push_cast; ring
  rw [e1, e2, truncInt_int, truncInt_int]
  obtain ⟨n, hn'⟩ := Int.eq_ofNat_of_zero_le (show 0 ≤ 90 - c - h - l by omega)
  have s1 := slice_present Z col hcol n (h + 1) (by omega)
  have s2 := slice_present Z col hcol (n + h) (h + 1) (by omega)
  rw [show (90 - c - h - l : ℤ) = (n : ℤ) from hn', show (90 - c - l + 1 : ℤ) = (n : ℤ) + (h + 1 : ℕ) by push_cast; omega,
    show (90 - c - l : ℤ) = ((n + h : ℕ) : ℤ) by push_cast; omega,
    show (90 - c + h - l + 1 : ℤ) = ((n + h : ℕ) : ℤ) + (h + 1 : ℕ) by push_cast; omega, s1, s2,
    npMean_present _ (by simp), npMean_present _ (by simp)]
  simp only [Option.some.injEq]
  congr 1
  · unfold northMean
    rw [List.length_map, List.length_range]
    congr 1
    · rw [Finset.sum_range, ← List.sum_ofFn, ← List.sum_reverse]
      congr 1
      apply List.ext_getElem
      · simp
      · intro k h1 h2
        simp only [List.length_reverse, List.length_map, List.length_range] at h1
        rw [List.getElem_reverse]
        simp only [List.getElem_map, List.getElem_range, List.length_map, List.length_range, List.getElem_ofFn]
        congr 1
        omega
    · push_cast; ring
  · unfold southMean
    rw [List.length_map, List.length_range]
    congr 1
    · rw [Finset.sum_range, ← List.sum_ofFn]
      congr 1
      apply List.ext_getElem
      · simp
      · intro k h1 h2
        simp only [List.getElem_map, List.getElem_range, List.getElem_ofFn]
        congr 1
        push_cast
        omega
    · push_cast; ring

theorem npMaxCells_present (g : ℤ → ℚ) : ∀ (ls : List ℤ), ls ≠ [] →
    ∃ b, npMaxCells (ls.map fun l => some (g l)) = .ok (some b) ∧ (∃ l ∈ ls, b = g l) ∧ ∀ l ∈ ls, g l ≤ b := by
  intro ls hne
  cases ls with
  | nil => exact absurd rfl hne
  | cons x ls =>
    simp only [List.map_cons, npMaxCells, Except.ok.injEq]
    have : ∀ (ls : List ℤ) (m : ℚ), ∃ b, (ls.map fun l => some (g l)).foldl (fun m y => match m, y with
        | some a, some b => some (max a b)
        | _, _ => none) (some m) = some b ∧ (b = m ∨ ∃ l ∈ ls, b = g l) ∧ m ≤ b ∧ ∀ l ∈ ls, g l ≤ b := by
      intro ls
      induction ls with
      | nil => intro m; exact ⟨m, rfl, .inl rfl, le_refl _, by simp⟩
      | cons y ls ih =>
        intro m
        obtain ⟨b, e, h1, h2, h3⟩ := ih (max m (g y))
        refine ⟨b, by simpa using e, ?_, le_trans (le_max_left _ _) h2, ?_⟩
        · rcases h1 with h1 | ⟨l, hl, h1⟩
          · rcases max_choice m (g y) with hm | hm
            · left; rw [h1, hm]
            · right; exact ⟨y, by simp, by rw [h1, hm]⟩
          · right; exact ⟨l, by simp [hl], h1⟩
        · intro l hl
          rcases List.mem_cons.mp hl with rfl | hl
          · exact le_trans (le_max_right _ _) h2
          · exact h3 l hl
    obtain ⟨b, e, h1, h2, h3⟩ := this ls (g x)
    refine ⟨b, e, ?_, ?_⟩
    · rcases h1 with rfl | ⟨l, hl, h1⟩
      · exact ⟨x, by simp, rfl⟩
      · exact ⟨l, by simp [hl], h1⟩
    · intro l hl
      rcases List.mem_cons.mp hl with rfl | hl
      · exact h2
      · exact h3 l hl

theorem npMaxCells_missing (ls : List Cell) (h : none ∈ ls) : npMaxCells ls = .ok none := by
  cases ls with
  | nil => simp at h
  | cons x ls =>
    simp only [npMaxCells, Except.ok.injEq]
    have hn : ∀ ls : List Cell, ls.foldl (fun m y => match m, y with
        | some a, some b => some (max a b)
        | _, _ => none) none = none := by
      intro ls
      induction ls with
      | nil => rfl
      | cons y ls ih => simpa using ih
    rcases List.mem_cons.mp h with rfl | h
    · exact hn ls
    · clear * - h hn
      induction ls generalizing x with
      | nil => simp at h
      | cons y ls ih =>
        rcases List.mem_cons.mp h with rfl | h
        · rw [List.foldl_cons]
          cases x <;> exact hn ls
        · exact ih _ h

/-- C125: heights on whole latitudes from the north pole southwards (row `i` is latitude `90 - i`), the central latitude
rounded up to `c`, bands of `h` degrees that stay on the grid for every offset: the blocking index is the largest difference
between the mean height north and south of the moved central latitude, and the longitude is blocked exactly when one of these
differences is positive.  Missing: odd band widths, and offsets whose band leaves the grid (next theorem). -/
theorem C125_blocked_partial (Z : ℤ → ℚ) (col : List Cell)
    (hcol : ∀ (i : ℕ), i < col.length → col[i]? = some (some (Z (90 - i)))) (cbl : ℚ) (c : ℤ) (h : ℕ) (deltas : List ℤ)
    (hc : IsIntegerPart (90 - cbl) (90 - c)) (hd : deltas ≠ [])
    (hgrid : ∀ l ∈ deltas, c + l + h ≤ 90 ∧ 90 - (c + l) + h < col.length) :
    ∃ bi flag, blocking1d "PH" col cbl (2 * h) deltas = .ok (some bi, flag) ∧
      (∃ l ∈ deltas, bi = northMean Z (c + l) h - southMean Z (c + l) h) ∧
      (∀ l ∈ deltas, northMean Z (c + l) h - southMean Z (c + l) h ≤ bi) ∧
      (flag = 1 ∨ flag = 0) ∧
      (flag = 1 ↔ ∃ l ∈ deltas, southMean Z (c + l) h < northMean Z (c + l) h) := by
  have hmap : deltas.map (blockDiff col cbl (2 * h)) =
      deltas.map fun l => some (northMean Z (c + l) h - southMean Z (c + l) h) :=
    List.map_congr_left fun l hl => blockDiff_eq Z col hcol cbl c h l hc (hgrid l hl).1 (hgrid l hl).2
  obtain ⟨b, e, h1, h2⟩ := npMaxCells_present (fun l => northMean Z (c + l) h - southMean Z (c + l) h) deltas hd
  refine ⟨b, if 0 < b then 1 else 0, ?_, h1, h2, ?_, ?_⟩
  · unfold blocking1d
    rw [if_pos rfl, hmap, e]
    rfl
  · split <;> simp
  · constructor
    · intro hf
      have hb : 0 < b := by
        by_contra hcon
        rw [if_neg hcon] at hf
        norm_num at hf
      obtain ⟨l, hl, rfl⟩ := h1
      exact ⟨l, hl, by linarith⟩
    · rintro ⟨l, hl, hlt⟩
      rw [if_pos (by have := h2 l hl; linarith)]

/-- C125: one offset whose northern band reaches beyond the pole makes the index missing and the longitude not blocked,
whatever the other offsets show. -/
theorem C125_beyond_pole (col : List Cell) (cbl : ℚ) (c : ℤ) (h : ℕ) (deltas : List ℤ) (l : ℤ)
    (hc : IsIntegerPart (90 - cbl) (90 - c)) (hl : l ∈ deltas) (hpole : 90 < c + l + h) (hbelow : c + l ≤ 90)
    (hgrid : h < col.length) :
    blocking1d "PH" col cbl (2 * h) deltas = .ok (none, 0) := by
  have hnone : blockDiff col cbl (2 * h) l = none := by
    unfold blockDiff
    have hdc : truncInt (90 - cbl) = 90 - c := isIntegerPart_unique (truncInt_spec _) hc
    simp only [hdc]
    have e1 : ((90 - c : ℤ) : ℚ) - ((2 * (h : ℤ) : ℤ) : ℚ) / 2 - (l : ℚ) = ((90 - c - h - l : ℤ) : ℚ) := by
      push_cast; ring
    rw [e1, truncInt_int]
    have : pySlice col (90 - c - h - l) (90 - c - l + 1) = [] := by
      unfold pySlice
      rw [List.drop_eq_nil_iff, List.length_take]
      unfold sliceIndex
      rw [if_pos (show (90 - c - h - l : ℤ) < 0 by omega), if_neg (by omega)]
      omega
    rw [this]
    rfl
  unfold blocking1d
  rw [if_pos rfl, npMaxCells_missing _ (List.mem_map.mpr ⟨l, hl, hnone⟩)]
  rfl

/-- Heights that grow with latitude: north of every latitude they are larger. -/
def exHeights : List Cell := (List.range 181).map fun i => some (5400 - 2 * (i : ℚ))

/-- C125 is false near the pole: with central latitude 72 the offset -5 alone shows blocking; adding the offset 5, whose band
ends at 92 degrees, the longitude is not blocked. -/
theorem C125_counterexample :
    blocking1d "PH" exHeights 72 30 [-5] = .ok (some 30, 1) ∧ blocking1d "PH" exHeights 72 30 [-5, 0, 5] = .ok (none, 0) := by
  decide +kernel

/-- C125: every other name of a method is accepted and finds no blocking anywhere. -/
theorem C125_other_method (meth : String) (col : List Cell) (cbl : ℚ) (db : ℤ) (deltas : List ℤ) (h : meth ≠ "PH") :
    blocking1d meth col cbl db deltas = .ok (some 0, 0) := by
  unfold blocking1d
  rw [if_neg h]

example : IsIntegerPart (90 - 72) (90 - 72) ∧ blocking1d "PH" exHeights 50 30 [-5, 0, 5] = .ok (some 30, 1) := by
  refine ⟨.inl (by norm_num), by decide +kernel⟩

end Metcalcpy.Props
