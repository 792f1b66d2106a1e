import Mathlib.Data.List.Nodup
import Mathlib.Tactic.Linarith
import Mathlib.Tactic.Ring
import Mathlib.Tactic.FieldSimp
import Verif.Props.C164_Matsuno

/-!
C167: the data frame of all equatorial wave modes.
-/

namespace Metcalcpy

theorem wnArray_nodup {maxWn : ℝ} (nWn : ℤ) (hm : maxWn ≠ 0) : (wnArray maxWn nWn).Nodup := by
  unfold wnArray
  dsimp only
  by_cases h : nWn.natAbs ≤ 1
  · have : nWn.natAbs = 0 ∨ nWn.natAbs = 1 := by omega
    rcases this with h | h <;> rw [h] <;> simp
  · apply List.Nodup.map _ List.nodup_range
    intro a b hab
    have h1 : ((nWn.natAbs : ℝ) - 1) ≠ 0 := by
      have : (2 : ℝ) ≤ nWn.natAbs := by exact_mod_cast (by omega : 2 ≤ nWn.natAbs)
      linarith
    have h2 : ((a : ℝ) - b) * ((maxWn - -maxWn) / ((nWn.natAbs : ℝ) - 1)) = 0 := by
      have : -maxWn + (a : ℝ) * ((maxWn - -maxWn) / ((nWn.natAbs : ℝ) - 1)) =
        -maxWn + (b : ℝ) * ((maxWn - -maxWn) / ((nWn.natAbs : ℝ) - 1)) := hab
      linarith
    rcases mul_eq_zero.mp h2 with h | h
    · exact_mod_cast (by linarith : (a : ℝ) = b)
    · exfalso
      rw [div_eq_zero_iff] at h
      rcases h with h | h
      · apply hm; linarith
      · exact h1 h

theorem filter_key (wns : List ℝ) (h : ℝ → Option ℝ) (hn : wns.Nodup) (w : ℝ) (hw : w ∈ wns) :
    open Classical in
    (wns.map (fun x : ℝ => (x, h x))).filter (fun r : ℝ × Option ℝ => decide (r.1 = w)) = [(w, h w)] := by
  classical
  induction wns with
  | nil => simp at hw
  | cons a t ih =>
    rw [List.nodup_cons] at hn
    rcases List.mem_cons.mp hw with rfl | hw
    · simp only [List.map_cons, List.filter_cons, decide_true, if_true]
      congr 1
      rw [List.filter_eq_nil_iff]
      intro r hr
      obtain ⟨x, hx, rfl⟩ := List.mem_map.mp hr
      simp only [decide_eq_true_eq]
      rintro rfl
      exact hn.1 hx
    · have hne : a ≠ w := by rintro rfl; exact hn.1 hw
      simp only [List.map_cons, List.filter_cons, hne, decide_false]
      exact ih hn.2 hw

theorem mergeOn_map (wns : List ℝ) (g : ℝ → List (Option ℝ)) (h : ℝ → Option ℝ) (hn : wns.Nodup) :
    mergeOn (wns.map (fun x : ℝ => (x, g x))) (wns.map (fun x : ℝ => (x, h x))) =
      wns.map (fun x : ℝ => (x, g x ++ [h x])) := by
  unfold mergeOn
  rw [List.flatMap_map]
  have : ∀ w ∈ wns, (List.map (fun r : ℝ × Option ℝ => (w, g w ++ [r.2]))
      (open Classical in (wns.map (fun x : ℝ => (x, h x))).filter (fun r : ℝ × Option ℝ => decide (r.1 = w)))) =
      [(w, g w ++ [h w])] := by
    intro w hw; rw [filter_key wns h hn w hw]; rfl
  rw [List.flatMap_congr (g := fun w => [(w, g w ++ [h w])]) this]
  rw [← List.map_eq_flatMap]

theorem merge_fold (wns : List ℝ) (hn : wns.Nodup) (F : WaveMode → ℝ → Option ℝ) (ms : List WaveMode)
    (g : ℝ → List (Option ℝ)) :
    ms.foldl (fun acc m => mergeOn acc (wns.map (fun x : ℝ => (x, F m x)))) (wns.map (fun x : ℝ => (x, g x))) =
      wns.map (fun x : ℝ => (x, g x ++ ms.map (fun m => F m x))) := by
  induction ms generalizing g with
  | nil => simp
  | cons m t ih =>
    rw [List.foldl_cons, mergeOn_map wns g (F m) hn, ih]
    simp

theorem mergeOn_length_const (left : List (ℝ × List (Option ℝ))) (right : List (ℝ × Option ℝ)) (w : ℝ)
    (hl : ∀ r ∈ left, r.1 = w) (hr : ∀ r ∈ right, r.1 = w) :
    (mergeOn left right).length = left.length * right.length ∧ ∀ r ∈ mergeOn left right, r.1 = w := by
  classical
  unfold mergeOn
  have hfil : ∀ row ∈ left, right.filter (fun r : ℝ × Option ℝ => decide (r.1 = row.1)) = right := by
    intro row hrow
    rw [List.filter_eq_self]
    intro r hr'
    simp [hr r hr', hl row hrow]
  constructor
  · rw [List.length_flatMap]
    have : left.map (fun row : ℝ × List (Option ℝ) => ((right.filter (fun r : ℝ × Option ℝ => decide (r.1 = row.1))).map
        (fun r : ℝ × Option ℝ => (row.1, row.2 ++ [r.2]))).length) = left.map (fun _ => right.length) := by
      apply List.map_congr_left
      intro row hrow
      rw [hfil row hrow, List.length_map]
    convert congrArg List.sum this using 1
    · simp
  · intro r hr'
    rw [List.mem_flatMap] at hr'
    obtain ⟨row, hrow, hr'⟩ := hr'
    obtain ⟨x, _, rfl⟩ := List.mem_map.mp hr'
    exact hl row hrow

namespace Props

open Spec

/-- C167.  The data frame has one row per wavenumber, in order, and in it, for every mode in the order Kelvin, MRG, EIG
    (n=0), then ER, EIG, WIG for each requested mode number, exactly the value of the mode's own curve. -/
theorem C167_frame (solve : (ℝ → ℝ) → ℝ → ℝ) (he : ℝ) (ns : List ℕ) (lat maxWn : ℝ) (nWn : ℤ) (hm : maxWn ≠ 0) :
    (matsunoDataframe solve he ns lat maxWn nWn).map Prod.fst = wnArray maxWn nWn ∧
    ∀ (i : ℕ) (m : WaveMode),
      ([WaveMode.kelvin, .mrg, .eig0] ++ (ns.map (fun n : ℕ => [WaveMode.er n, .eig n, .wig n])).flatten)[i]? = some m →
      ∀ (j : ℕ) (wn : ℝ) (row : List (Option ℝ)), (matsunoDataframe solve he ns lat maxWn nWn)[j]? = some (wn, row) →
        row.length = 3 + 3 * ns.length ∧
        ∃ v, row[i]? = some v ∧ (modeColumn solve m he lat maxWn nWn)[j]? = some (wn, v) := by
  set F : WaveMode → ℝ → Option ℝ := fun m wn =>
    (modeOmega solve m he (coriolisGradient lat) (radPerMetre lat wn)).map afreq2freq with hF
  have hcol : ∀ m, modeColumn solve m he lat maxWn nWn = (wnArray maxWn nWn).map (fun x : ℝ => (x, F m x)) :=
    fun m => modeColumn_eq solve m he lat maxWn nWn
  have hframe : matsunoDataframe solve he ns lat maxWn nWn =
      (wnArray maxWn nWn).map (fun x : ℝ => (x, (matsunoModes ns).map (fun m => F m x))) := by
    unfold matsunoDataframe
    dsimp only
    rw [hcol .kelvin, List.map_map]
    have h1 : ((wnArray maxWn nWn).map ((fun r : ℝ × Option ℝ => (r.1, [r.2])) ∘ fun x : ℝ => (x, F .kelvin x))) =
        (wnArray maxWn nWn).map (fun x : ℝ => (x, [F .kelvin x])) := rfl
    rw [h1]
    have h2 : (fun acc m => mergeOn acc (modeColumn solve m he lat maxWn nWn)) =
        (fun acc m => mergeOn acc ((wnArray maxWn nWn).map (fun x : ℝ => (x, F m x)))) := by
      funext acc m; rw [hcol]
    rw [h2, merge_fold _ (wnArray_nodup nWn hm)]
    rfl
  have hmodes : ([WaveMode.kelvin, .mrg, .eig0] ++ (ns.map (fun n : ℕ => [WaveMode.er n, .eig n, .wig n])).flatten) =
      matsunoModes ns := by
    unfold matsunoModes; rw [List.flatMap_def]
  have hlen : (matsunoModes ns).length = 3 + 3 * ns.length := by
    unfold matsunoModes
    rw [List.length_append, List.length_flatMap]
    simp [mul_comm]
  rw [hframe, hmodes]
  refine ⟨by rw [List.map_map]; simp [Function.comp_def], ?_⟩
  intro i m hi j wn row hrow
  rw [List.getElem?_map, Option.map_eq_some_iff] at hrow
  obtain ⟨x, hx, hxe⟩ := hrow
  obtain ⟨rfl, rfl⟩ := Prod.mk.inj hxe
  refine ⟨by rw [List.length_map, hlen], F m x, ?_, ?_⟩
  · rw [List.getElem?_map, hi]; rfl
  · rw [hcol, List.getElem?_map, hx]; rfl

/-- C167.  With `max_wn = 0` all wavenumbers are equal and the join multiplies the rows: `n` wavenumbers give
    `n` to the power of the number of modes. -/
theorem C167_zero_range (solve : (ℝ → ℝ) → ℝ → ℝ) (he : ℝ) (ns : List ℕ) (lat : ℝ) (n : ℕ) :
    (matsunoDataframe solve he ns lat 0 n).length = n ^ (3 + 3 * ns.length) := by
  have hw : ∀ w ∈ wnArray 0 n, w = 0 := by
    intro w hw
    unfold wnArray at hw
    obtain ⟨j, _, rfl⟩ := List.mem_map.mp hw
    simp
  have hwl : (wnArray 0 (n : ℤ)).length = n := by unfold wnArray; simp
  have hcol : ∀ m, (modeColumn solve m he lat 0 n).length = n ∧ ∀ r ∈ modeColumn solve m he lat 0 n, r.1 = 0 := by
    intro m
    rw [modeColumn_eq]
    refine ⟨by rw [List.length_map, hwl], ?_⟩
    intro r hr
    obtain ⟨x, hx, rfl⟩ := List.mem_map.mp hr
    exact hw x hx
  have hfold : ∀ (ms : List WaveMode) (acc : List (ℝ × List (Option ℝ))), (∀ r ∈ acc, r.1 = 0) →
      (ms.foldl (fun acc m => mergeOn acc (modeColumn solve m he lat 0 n)) acc).length = acc.length * n ^ ms.length := by
    intro ms
    induction ms with
    | nil => intro acc _; simp
    | cons m t ih =>
      intro acc hacc
      obtain ⟨h1, h2⟩ := mergeOn_length_const acc _ 0 hacc (hcol m).2
      rw [List.foldl_cons, ih _ h2, h1, (hcol m).1, List.length_cons, pow_succ]
      ring
  unfold matsunoDataframe
  dsimp only
  rw [hfold _ _ (by
    intro r hr
    obtain ⟨x, hx, rfl⟩ := List.mem_map.mp hr
    exact (hcol .kelvin).2 x hx), List.length_map, (hcol .kelvin).1]
  have hlen : ((matsunoModes ns).drop 1).length = 2 + 3 * ns.length := by
    unfold matsunoModes
    rw [List.length_drop, List.length_append, List.length_flatMap]
    simp [mul_comm]
  rw [hlen, ← pow_succ']
  congr 1
  ring

example : matsunoModes [1, 2] = [.kelvin, .mrg, .eig0, .er 1, .eig 1, .wig 1, .er 2, .eig 2, .wig 2] := rfl

example (solve : (ℝ → ℝ) → ℝ → ℝ) : (matsunoDataframe solve 25 [1] 0 0 2).length = 64 := by
  have := C167_zero_range solve 25 [1] 0 2
  simpa using this

end Props

end Metcalcpy
