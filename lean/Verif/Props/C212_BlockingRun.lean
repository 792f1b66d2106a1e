/-
C212  The central blocking latitude of a season is the latitude where the daily anomalies vary most.
C213  A season without files does not change the central blocking latitude.
C214  Instantaneous blocking of a day depends on the heights of the day and the mean central latitude only.
-/
import Verif.Spec.BlockingRun
import Verif.Props.C125_Blocking
import Mathlib.Algebra.BigOperators.Group.List.Lemmas
import Mathlib.Algebra.BigOperators.Ring.List
import Mathlib.Data.List.ReduceOption

namespace Metcalcpy.Props
open Metcalcpy Spec

/-! ### Reading -/

/-- The field of file number `k` (NaN everywhere for a missing one). -/
def fieldOf (a b : ℕ) : Option MetFile → List (List Cell)
  | none => List.replicate a (List.replicate b none)
  | some f => f.field

theorem fileField_ok {lats lons : List ℚ} {files : List (Option MetFile)} (h : OnGrid lats lons files) {f : Option MetFile}
    (hf : f ∈ files) : fileField lats.length lons.length f = .ok (fieldOf lats.length lons.length f) := by
  cases f with
  | none => rfl
  | some f =>
    obtain ⟨_, _, h3, h4⟩ := h.shape f hf
    simp only [fileField, fieldOf]
    rw [if_pos ⟨h3, h4⟩]

theorem drop_take_range {α : Type} (l : List α) (d : α) (n m : ℕ) (h : n + m ≤ l.length) :
    (l.drop n).take m = (List.range m).map fun k => l.getD (n + k) d := by
  apply List.ext_getElem
  · simp; omega
  · intro k h1 h2
    simp only [List.getElem_take, List.getElem_drop, List.getElem_map, List.getElem_range]
    rw [List.getD_eq_getElem _ _ (by simp at h2; omega)]

/-- The fields of season `s`. -/
def seasonFields (a b : ℕ) (files : List (Option MetFile)) (ds s : ℕ) : List (List (List Cell)) :=
  (List.range ds).map fun d => fieldOf a b (files.getD (s * ds + d) none)

theorem readNcMet_ok {lats lons : List ℚ} {files : List (Option MetFile)} (h : OnGrid lats lons files) (ns ds : ℕ)
    (hn : files.length = ns * ds) : readNcMet files ns ds =
      .ok ⟨(List.range ns).map (seasonFields lats.length lons.length files ds), lats, lons⟩ := by
  obtain ⟨g, hg⟩ := h.present
  unfold readNcMet
  cases hr : files.reduceOption with
  | nil =>
    have := List.reduceOption_mem_iff.mpr hg
    rw [hr] at this
    simp at this
  | cons f rest =>
    have hf : some f ∈ files := List.reduceOption_mem_iff.mp (by rw [hr]; simp)
    obtain ⟨h1, h2, _, _⟩ := h.shape f hf
    simp only
    rw [h1, h2, mapM_ok_of _ (fieldOf lats.length lons.length) files (fun x hx => fileField_ok h hx)]
    simp only [bind, Except.bind, pure, Except.pure]
    rw [if_pos hn]
    congr 2
    apply List.map_congr_left
    intro s hs
    rw [List.mem_range] at hs
    have hle : s * ds + ds ≤ files.length := by
      rw [hn, ← Nat.succ_mul]
      exact Nat.mul_le_mul_right _ hs
    rw [drop_take_range _ [] _ _ (by simpa using hle)]
    unfold seasonFields
    apply List.map_congr_left
    intro d hd
    rw [List.mem_range] at hd
    have hlt : s * ds + d < files.length := by omega
    rw [List.getD_eq_getElem _ _ (by simpa using hlt), List.getD_eq_getElem _ _ hlt, List.getElem_map]

theorem fieldOf_at {lats lons : List ℚ} {files : List (Option MetFile)} (k i j : ℕ) :
    ((fieldOf lats.length lons.length (files.getD k none)).getD i []).getD j none = valueAt files k i j := by
  unfold valueAt
  rw [List.getD_eq_getElem?_getD (l := files)]
  rcases files[k]? with _ | f
  · simp only [Option.getD_none, fieldOf, Option.join, Option.bind_none]
    rw [List.getD_eq_getElem?_getD, List.getD_eq_getElem?_getD]
    simp only [List.getElem?_replicate]
    split
    · simp only [Option.getD_some, List.getElem?_replicate]
      split <;> rfl
    · simp
  · simp only [Option.getD_some, Option.join, Option.bind_some, id]
    cases f with
    | none =>
      simp only [fieldOf, Option.bind_none]
      rw [List.getD_eq_getElem?_getD, List.getD_eq_getElem?_getD]
      simp only [List.getElem?_replicate]
      split
      · simp only [Option.getD_some, List.getElem?_replicate]
        split <;> rfl
      · simp
    | some f =>
      simp only [fieldOf, Option.bind_some]
      rw [List.getD_eq_getElem?_getD, List.getD_eq_getElem?_getD]
      cases f.field[i]? with
      | none => simp
      | some r =>
        simp only [Option.getD_some, Option.bind_some]
        cases r[j]? <;> simp

theorem pointSeries_eq {lats lons : List ℚ} {files : List (Option MetFile)} (ds s i j : ℕ) :
    (pointSeries (seasonFields lats.length lons.length files ds s) i j).reduceOption = seasonValues files ds s i j := by
  unfold pointSeries seasonFields seasonValues
  rw [List.map_map]
  simp only [Function.comp_def, fieldOf_at]
  rw [List.reduceOption, List.filterMap_map]
  rfl

/-! ### The latitude of largest variability -/

theorem firstMax_spec : ∀ (l : List ℝ), l ≠ [] → IsFirstPeak (fun k => l.getD k 0) l.length (firstMax l)
  | [], h => absurd rfl h
  | [x], _ => by
    refine ⟨by simp [firstMax], ?_, ?_⟩
    · intro k hk
      simp only [List.length_singleton, Nat.lt_one_iff] at hk
      subst hk
      simp [firstMax]
    · intro k hk
      simp [firstMax] at hk
  | x :: y :: ys, _ => by
    obtain ⟨h1, h2, h3⟩ := firstMax_spec (y :: ys) (by simp)
    unfold firstMax
    generalize (y :: ys) = l at *
    split
    · rename_i hlt
      refine ⟨by simpa using h1, ?_, ?_⟩
      · rintro (_ | k) hk
        · simpa using hlt.le
        · simpa using h2 k (by simpa using hk)
      · rintro (_ | k) hk
        · simpa using hlt
        · simpa using h3 k (by simpa using hk)
    · rename_i hle
      refine ⟨by simp, ?_, by simp⟩
      rintro (_ | k) hk
      · simp
      · have := h2 k (by simpa using hk)
        simp only [List.getD_cons_succ, List.getD_cons_zero]
        linarith

theorem firstPeak_unique {g : ℕ → ℝ} {n i j : ℕ} (h : IsFirstPeak g n i) (h' : IsFirstPeak g n j) : i = j := by
  rcases lt_trichotomy i j with hl | hl | hl
  · have := h'.2.2 i hl
    have := h.2.1 j h'.1
    linarith
  · exact hl
  · have := h.2.2 j hl
    have := h'.2.1 i h.1
    linarith

/-- The position chosen by `np.argmax`. -/
noncomputable def argIdx (xs : List (Option ℝ)) : ℕ :=
  match xs.findIdx? (·.isNone) with
  | some i => i
  | none => firstMax (xs.map (·.getD 0))

theorem npArgmax_eq (xs : List (Option ℝ)) (h : xs ≠ []) : npArgmax xs = .ok (argIdx xs) := by
  unfold npArgmax argIdx
  rw [if_neg (by simpa using h)]
  cases xs.findIdx? (·.isNone) <;> rfl

theorem nanVar_eq (xs : List Cell) (h : xs.reduceOption ≠ []) :
    nanVar xs = some (((xs.reduceOption.map fun y : ℚ => (y - xs.reduceOption.sum / (xs.reduceOption.length : ℚ)) ^ 2).sum /
      (xs.reduceOption.length : ℚ) : ℚ)) := by
  unfold nanVar
  simp only
  rw [if_neg (by simpa using h)]

theorem weightedStd_some (lat : ℚ) (xs : List Cell) (h : xs.reduceOption ≠ []) :
    weightedStd lat xs = some (spread xs.reduceOption * latWeight lat) := by
  unfold weightedStd
  rw [nanVar_eq xs h]
  rfl

theorem weightedStd_none (lat : ℚ) (xs : List Cell) (h : xs.reduceOption = []) : weightedStd lat xs = none := by
  unfold weightedStd nanVar
  simp [h]

/-- The weighted standard deviations along a meridian. -/
noncomputable def meridian (lats lons : List ℚ) (files : List (Option MetFile)) (ds s j : ℕ) : List (Option ℝ) :=
  (List.range lats.length).map fun i =>
    weightedStd (lats.getD i 0) (pointSeries (seasonFields lats.length lons.length files ds s) i j)

/-- The latitude taken for season `s` and longitude `j`. -/
noncomputable def peakAt (lats lons : List ℚ) (files : List (Option MetFile)) (ds s j : ℕ) : ℚ :=
  lats.getD (argIdx (meridian lats lons files ds s j)) 0

theorem peakLat_ok (lats lons : List ℚ) (files : List (Option MetFile)) (ds s j : ℕ) (h : lats ≠ []) :
    peakLat lats (seasonFields lats.length lons.length files ds s) j = .ok (peakAt lats lons files ds s j) := by
  unfold peakLat peakAt meridian
  rw [npArgmax_eq _ (by simpa using h)]
  rfl

theorem runCbl_eq {lats lons : List ℚ} {files : List (Option MetFile)} (h : OnGrid lats lons files) (hl : lats ≠ [])
    (hlon : lons.length = 360) (pts ns ds : ℕ) (hn : files.length = ns * ds) (hm : (pts - 1) / 2 ≤ 360) :
    runCbl pts files ns ds = .ok ((List.range ns).map fun s => (List.range 360).map fun (j : ℕ) =>
      truncInt (windowMean (fun z => peakAt lats lons files ds s (z % 360).toNat) ((pts - 1) / 2) j), lats, lons) := by
  unfold runCbl
  rw [readNcMet_ok h ns ds hn]
  simp only [bind, Except.bind, pure, Except.pure]
  rw [if_neg (by simpa using hlon)]
  have h1 : ((List.range ns).map (seasonFields lats.length lons.length files ds)).mapM
      (fun season => (List.range lons.length).mapM (peakLat lats season)) =
      .ok ((List.range ns).map fun s => (List.range lons.length).map (peakAt lats lons files ds s)) := by
    rw [List.mapM_map]
    exact mapM_ok_of _ _ _ fun s _ => mapM_ok_of _ _ _ fun j _ => peakLat_ok lats lons files ds s j hl
  rw [h1]
  simp only
  have h2 : ((List.range ns).map fun s => (List.range lons.length).map (peakAt lats lons files ds s)).mapM
      (fun row => (List.range row.length).mapM (cblSmooth pts row)) =
      .ok ((List.range ns).map fun s => (List.range 360).map fun (j : ℕ) =>
        truncInt (windowMean (fun z => peakAt lats lons files ds s (z % 360).toNat) ((pts - 1) / 2) j)) := by
    rw [List.mapM_map]
    refine mapM_ok_of _ _ _ fun s _ => ?_
    simp only [Function.comp_def, List.length_map, List.length_range, hlon]
    refine mapM_ok_of _ _ _ fun j hj => ?_
    rw [List.mem_range] at hj
    rw [cblSmooth_eq pts _ j (by simpa using hm) (by simpa using hj)]
    congr 2
    unfold windowMean
    congr 1
    apply Finset.sum_congr rfl
    intro k _
    unfold around
    simp only [List.length_map, List.length_range]
    generalize ((j : ℤ) - ((pts - 1) / 2 : ℕ) + k) = z
    have hz : (z % ((360 : ℕ) : ℤ)).toNat < 360 := by omega
    rw [List.getD_eq_getElem _ _ (by simpa using hz)]
    simp
  rw [h2]

/-- C212: files of one grid with 360 longitudes, every grid point with at least one value in every season: the latitude of a
season and longitude is the integer part of the mean, over the `pts` longitudes around it, of the latitudes at which the
standard deviation of the present days times `sqrt(cos(latitude))` is largest, the first such latitude of the grid on ties. -/
theorem C212_latitude {lats lons : List ℚ} {files : List (Option MetFile)} (h : OnGrid lats lons files) (hl : lats ≠ [])
    (hlon : lons.length = 360) (pts ns ds : ℕ) (hn : files.length = ns * ds) (hm : (pts - 1) / 2 ≤ 360)
    (hdata : ∀ s < ns, ∀ i < lats.length, ∀ j < 360, seasonValues files ds s i j ≠ []) :
    ∃ cbl, runCbl pts files ns ds = .ok (cbl, lats, lons) ∧ cbl.length = ns ∧
      ∃ peak : ℕ → ℕ → ℕ,
        (∀ s < ns, ∀ j < 360, IsFirstPeak (fun i => spread (seasonValues files ds s i j) *
          Real.sqrt (Real.cos ((lats.getD i 0 : ℚ) * Real.pi / 180))) lats.length (peak s j)) ∧
        ∀ s < ns, ∃ row, cbl[s]? = some row ∧ row.length = 360 ∧ ∀ j : ℕ, j < 360 → ∃ v, row[j]? = some v ∧
          IsIntegerPart (windowMean (fun z => lats.getD (peak s (z % 360).toNat) 0) ((pts - 1) / 2) j) v := by
  refine ⟨_, runCbl_eq h hl hlon pts ns ds hn hm, by simp, fun s j => argIdx (meridian lats lons files ds s j), ?_, ?_⟩
  · intro s hs j hj
    have hmer : meridian lats lons files ds s j = (List.range lats.length).map fun i =>
        some (spread (seasonValues files ds s i j) * latWeight (lats.getD i 0)) := by
      unfold meridian
      apply List.map_congr_left
      intro i hi
      rw [List.mem_range] at hi
      rw [weightedStd_some _ _ (by rw [pointSeries_eq]; exact hdata s hs i hi j hj), pointSeries_eq]
    have hidx : argIdx (meridian lats lons files ds s j) = firstMax ((List.range lats.length).map fun i =>
        spread (seasonValues files ds s i j) * latWeight (lats.getD i 0)) := by
      unfold argIdx
      rw [hmer, List.findIdx?_eq_none_iff.mpr (by
        intro x hx
        obtain ⟨i, _, rfl⟩ := List.mem_map.mp hx
        rfl)]
      simp only [List.map_map]
      rfl
    have hspec := firstMax_spec ((List.range lats.length).map fun i =>
        spread (seasonValues files ds s i j) * latWeight (lats.getD i 0)) (by simpa using hl)
    rw [← hidx, List.length_map, List.length_range] at hspec
    have hg : ∀ k < lats.length, ((List.range lats.length).map fun i =>
        spread (seasonValues files ds s i j) * latWeight (lats.getD i 0)).getD k 0 =
        spread (seasonValues files ds s k j) * latWeight (lats.getD k 0) := by
      intro k hk
      rw [List.getD_eq_getElem _ _ (by simpa using hk)]
      simp
    obtain ⟨h1, h2, h3⟩ := hspec
    refine ⟨h1, ?_, ?_⟩
    · intro k hk
      have := h2 k hk
      simp only [hg k hk, hg _ h1] at this
      exact this
    · intro k hk
      have := h3 k hk
      simp only [hg k (hk.trans h1), hg _ h1] at this
      exact this
  · intro s hs
    refine ⟨_, by rw [List.getElem?_map, List.getElem?_range hs]; rfl, by simp, ?_⟩
    intro j hj
    exact ⟨_, by dsimp only; rw [List.getElem?_map, List.getElem?_range hj]; rfl, truncInt_spec _⟩

/-- C212: a grid with another number of longitudes is refused. -/
theorem C212_other_grid {lats lons : List ℚ} {files : List (Option MetFile)} (h : OnGrid lats lons files)
    (hlon : lons.length ≠ 360) (pts ns ds : ℕ) : ∃ e, runCbl pts files ns ds = .error e := by
  unfold runCbl
  by_cases hn : files.length = ns * ds
  · rw [readNcMet_ok h ns ds hn]
    exact ⟨.valueError, by simp [bind, Except.bind, hlon]⟩
  · have : ∃ e, readNcMet files ns ds = .error e := by
      unfold readNcMet
      cases files.reduceOption with
      | nil => exact ⟨_, rfl⟩
      | cons f rest =>
        simp only [bind, Except.bind]
        cases files.mapM (fileField f.lats.length f.lons.length) with
        | error e => exact ⟨e, rfl⟩
        | ok v => exact ⟨.valueError, by simp [hn]⟩
    obtain ⟨e, he⟩ := this
    exact ⟨e, by rw [he]; rfl⟩

/-! ### Invariance -/

theorem firstMax_scale (c : ℝ) (hc : 0 < c) : ∀ l : List ℝ, firstMax (l.map (c * ·)) = firstMax l
  | [] => rfl
  | [_] => rfl
  | x :: y :: ys => by
    have ih := firstMax_scale c hc (y :: ys)
    simp only [List.map_cons] at ih ⊢
    unfold firstMax
    rw [ih]
    have e : (c * y :: ys.map (c * ·)).getD (firstMax (y :: ys)) 0 = c * (y :: ys).getD (firstMax (y :: ys)) 0 := by
      rw [← List.map_cons (f := (c * ·)), List.getD_eq_getElem?_getD, List.getD_eq_getElem?_getD, List.getElem?_map]
      cases (y :: ys)[firstMax (y :: ys)]? <;> simp
    rw [e]
    simp only [mul_lt_mul_iff_right₀ hc]

theorem argIdx_scale (c : ℝ) (hc : 0 < c) (xs : List (Option ℝ)) : argIdx (xs.map (Option.map (c * ·))) = argIdx xs := by
  unfold argIdx
  have e : (xs.map (Option.map (c * ·))).findIdx? (·.isNone) = xs.findIdx? (·.isNone) := by
    rw [List.findIdx?_map]
    congr 1
    funext x
    cases x <;> rfl
  rw [e]
  cases xs.findIdx? (·.isNone) with
  | some i => rfl
  | none =>
    simp only [List.map_map]
    rw [← firstMax_scale c hc (xs.map (·.getD 0)), List.map_map]
    congr 1
    apply List.map_congr_left
    intro x _
    cases x <;> simp

theorem spread_affine (c g : ℚ) (hc : 0 < c) (xs ys : List ℚ) (h : ys.Perm (xs.map fun x => c * x + g)) :
    spread ys = c * spread xs := by
  have hlen : ys.length = xs.length := by simpa using h.length_eq
  rcases Nat.eq_zero_or_pos xs.length with h0 | hpos
  · have hx : xs = [] := List.length_eq_zero_iff.mp h0
    have hy : ys = [] := List.length_eq_zero_iff.mp (hlen.trans h0)
    subst hx hy
    simp [spread]
  have hn : (xs.length : ℚ) ≠ 0 := by exact_mod_cast hpos.ne'
  have hsum : ys.sum = c * xs.sum + xs.length * g := by
    rw [h.sum_eq, List.sum_map_add, List.sum_map_mul_left]
    simp
  have hmean : ys.sum / ys.length = c * (xs.sum / xs.length) + g := by
    rw [hsum, hlen]; field_simp
  have hvar : (ys.map fun y => (y - ys.sum / ys.length) ^ 2).sum / ys.length =
      c ^ 2 * ((xs.map fun x => (x - xs.sum / xs.length) ^ 2).sum / xs.length) := by
    rw [hmean, hlen, (h.map _).sum_eq, List.map_map, ← mul_div_assoc (c ^ 2)]
    congr 1
    rw [← List.sum_map_mul_left]
    congr 1
    apply List.map_congr_left
    intro x _
    simp only [Function.comp]
    ring
  unfold spread
  rw [hvar]
  push_cast
  rw [Real.sqrt_mul (by positivity), Real.sqrt_sq (by exact_mod_cast hc.le)]

/-- C212: seasons whose values differ by a positive factor common to the season (units) and by an amount that depends on the
grid point (climatology), in any order of the days and with any missing days inserted or removed, have the same central
blocking latitudes. -/
theorem C212_invariant {lats lons : List ℚ} {files files' : List (Option MetFile)} (h : OnGrid lats lons files)
    (h' : OnGrid lats lons files') (hl : lats ≠ []) (hlon : lons.length = 360) (pts ns ds ds' : ℕ)
    (hn : files.length = ns * ds) (hn' : files'.length = ns * ds') (hm : (pts - 1) / 2 ≤ 360)
    (c : ℕ → ℚ) (hc : ∀ s, 0 < c s) (g : ℕ → ℕ → ℕ → ℚ)
    (hv : ∀ s < ns, ∀ i < lats.length, ∀ j < 360,
      (seasonValues files' ds' s i j).Perm ((seasonValues files ds s i j).map fun x => c s * x + g s i j)) :
    runCbl pts files' ns ds' = runCbl pts files ns ds := by
  rw [runCbl_eq h hl hlon pts ns ds hn hm, runCbl_eq h' hl hlon pts ns ds' hn' hm]
  congr 2
  apply List.map_congr_left
  intro s hs
  rw [List.mem_range] at hs
  have key : ∀ j < 360, peakAt lats lons files' ds' s j = peakAt lats lons files ds s j := by
    intro j hj
    unfold peakAt
    congr 1
    rw [← argIdx_scale (c s) (by exact_mod_cast hc s) (meridian lats lons files ds s j)]
    congr 1
    unfold meridian
    rw [List.map_map]
    apply List.map_congr_left
    intro i hi
    rw [List.mem_range] at hi
    have hp := hv s hs i hi j hj
    simp only [Function.comp]
    by_cases he : seasonValues files ds s i j = []
    · have he' : seasonValues files' ds' s i j = [] := by
        rw [he, List.map_nil] at hp
        exact hp.eq_nil
      rw [weightedStd_none _ _ (by rw [pointSeries_eq]; exact he'), weightedStd_none _ _ (by rw [pointSeries_eq]; exact he)]
      rfl
    · have he' : seasonValues files' ds' s i j ≠ [] := by
        intro h0
        rw [h0] at hp
        have := hp.symm.eq_nil
        exact he (by simpa using this)
      rw [weightedStd_some _ _ (by rw [pointSeries_eq]; exact he'), weightedStd_some _ _ (by rw [pointSeries_eq]; exact he),
        pointSeries_eq, pointSeries_eq, spread_affine (c s) (g s i j) (hc s) _ _ hp]
      simp only [Option.map_some]
      rw [mul_assoc]
  apply List.map_congr_left
  intro j _
  congr 1
  unfold windowMean
  congr 1
  apply Finset.sum_congr rfl
  intro k _
  exact key _ (by omega)

/-! ### C213 -/

/-- C213: a season without any value is given the first latitude of the grid at every longitude. -/
theorem C213_missing_season {lats lons : List ℚ} {files : List (Option MetFile)} (h : OnGrid lats lons files)
    (hl : lats ≠ []) (hlon : lons.length = 360) (pts ns ds : ℕ) (hn : files.length = ns * ds) (hm : (pts - 1) / 2 ≤ 360)
    (s : ℕ) (hs : s < ns) (hmiss : ∀ d < ds, files[s * ds + d]? = some none) (z : ℤ) (hz : lats.getD 0 0 = z) :
    ∃ cbl, runCbl pts files ns ds = .ok (cbl, lats, lons) ∧ cbl[s]? = some (List.replicate 360 z) := by
  refine ⟨_, runCbl_eq h hl hlon pts ns ds hn hm, ?_⟩
  rw [List.getElem?_map, List.getElem?_range hs]
  simp only [Option.map_some]
  have hv : ∀ i j, seasonValues files ds s i j = [] := by
    intro i j
    unfold seasonValues
    rw [List.filterMap_eq_nil_iff]
    intro d hd
    rw [List.mem_range] at hd
    unfold valueAt
    rw [hmiss d hd]
    rfl
  have hp : ∀ j, peakAt lats lons files ds s j = z := by
    intro j
    unfold peakAt
    rw [← hz]
    congr 1
    unfold argIdx meridian
    cases lats with
    | nil => exact absurd rfl hl
    | cons a rest =>
      rw [List.length_cons, List.range_succ_eq_map, List.map_cons, List.findIdx?_cons,
        weightedStd_none _ _ (by
          have := pointSeries_eq (lats := a :: rest) (lons := lons) (files := files) ds s 0 j
          rw [List.length_cons] at this
          rw [this]; exact hv 0 j)]
      rfl
  have hw : ∀ j : ℕ, truncInt (windowMean (fun w => peakAt lats lons files ds s (w % 360).toNat) ((pts - 1) / 2) j) = z := by
    intro j
    simp only [windowMean, hp, Finset.sum_const, Finset.card_range, nsmul_eq_mul]
    have : (((2 * ((pts - 1) / 2) + 1 : ℕ) : ℚ) * (z : ℚ)) / (2 * (((pts - 1) / 2 : ℕ) : ℚ) + 1) = (z : ℚ) := by
      push_cast
      field_simp
    rw [this, truncInt_int]
  simp only [hw]
  rw [List.map_const', List.length_range]

/-- A day on the grid of latitudes 90 and 40: nothing at 90, `v` at 40. -/
def exDay (lons : List ℚ) (v : ℚ) : MetFile := ⟨[90, 40], lons, [lons.map fun _ => some 0, lons.map fun _ => some v]⟩

theorem exDay_grid (lons : List ℚ) (l : List (Option MetFile)) (h : ∃ v, some (exDay lons v) ∈ l)
    (hl : ∀ f, some f ∈ l → ∃ v, f = exDay lons v) : OnGrid [90, 40] lons l := by
  refine ⟨?_, ?_⟩
  · obtain ⟨v, hv⟩ := h
    exact ⟨_, hv⟩
  · intro f hf
    obtain ⟨v, rfl⟩ := hl f hf
    refine ⟨rfl, rfl, rfl, ?_⟩
    intro r hr
    simp only [exDay, List.mem_cons, List.not_mem_nil, or_false] at hr
    rcases hr with rfl | rfl <;> rw [List.length_map]

theorem exDay_value (lons : List ℚ) (l : List (Option MetFile)) (k : ℕ) (v : ℚ) (h : l[k]? = some (some (exDay lons v)))
    (j : ℕ) (hj : j < lons.length) : valueAt l k 0 j = some 0 ∧ valueAt l k 1 j = some v := by
  unfold valueAt
  rw [h]
  constructor
  · show ((lons.map fun _ => some (0 : ℚ))[j]?).join = _
    rw [List.getElem?_map, List.getElem?_eq_getElem hj]
    rfl
  · show ((lons.map fun _ => some v)[j]?).join = _
    rw [List.getElem?_map, List.getElem?_eq_getElem hj]
    rfl

/-- Two days, `0` and `2` at latitude 40. -/
def exCblSeason (lons : List ℚ) : List (Option MetFile) := [some (exDay lons 0), some (exDay lons 2)]

theorem exCblSeason_values (lons : List ℚ) (rest : List (Option MetFile)) (j : ℕ) (hj : j < lons.length) :
    seasonValues (exCblSeason lons ++ rest) 2 0 0 j = [0, 0] ∧ seasonValues (exCblSeason lons ++ rest) 2 0 1 j = [0, 2] := by
  obtain ⟨a0, a1⟩ := exDay_value lons (exCblSeason lons ++ rest) 0 0 rfl j hj
  obtain ⟨b0, b1⟩ := exDay_value lons (exCblSeason lons ++ rest) 1 2 rfl j hj
  unfold seasonValues
  simp [List.range_succ, a0, a1, b0, b1]

theorem exPeak (lons : List ℚ) (rest : List (Option MetFile)) (j : ℕ) (hj : j < lons.length) :
    peakAt [90, 40] lons (exCblSeason lons ++ rest) 2 0 j = 40 := by
  obtain ⟨h0, h1⟩ := exCblSeason_values lons rest j hj
  have e0 : spread [0, 0] = 0 := by simp [spread]
  have e1 : spread [0, 2] = 1 := by
    unfold spread
    norm_num
  have hw : 0 < latWeight 40 := by
    unfold latWeight
    apply Real.sqrt_pos.mpr
    apply Real.cos_pos_of_mem_Ioo
    constructor
    · have := Real.pi_pos
      push_cast
      linarith
    · have := Real.pi_pos
      push_cast
      linarith
  have hmer : meridian [90, 40] lons (exCblSeason lons ++ rest) 2 0 j = [some 0, some (latWeight 40)] := by
    unfold meridian
    have q0 := pointSeries_eq (lats := [90, 40]) (lons := lons) (files := exCblSeason lons ++ rest) 2 0 0 j
    have q1 := pointSeries_eq (lats := [90, 40]) (lons := lons) (files := exCblSeason lons ++ rest) 2 0 1 j
    simp only [List.length_cons, List.length_nil, Nat.zero_add, List.range_succ, List.range_zero, List.nil_append,
      List.map_cons, List.map_nil, List.cons_append] at q0 q1 ⊢
    rw [weightedStd_some _ _ (by rw [q0, h0]; simp), weightedStd_some _ _ (by rw [q1, h1]; simp), q0, q1, h0, h1, e0, e1]
    simp
  unfold peakAt
  have : argIdx [some 0, some (latWeight 40)] = 1 := by
    unfold argIdx
    simp only [List.findIdx?_cons, List.findIdx?_nil, Option.isNone_some, Option.map_none, List.map_cons, List.map_nil,
      Option.getD_some, Bool.false_eq_true, if_false]
    simp [firstMax, hw]
  rw [hmer, this]
  rfl

theorem exCblSeason_grid (lons : List ℚ) (rest : List (Option MetFile)) (hr : ∀ f, some f ∉ rest) :
    OnGrid [90, 40] lons (exCblSeason lons ++ rest) := by
  refine exDay_grid lons _ ⟨0, by simp [exCblSeason]⟩ ?_
  intro f hf
  rw [List.mem_append] at hf
  rcases hf with hf | hf
  · simp only [exCblSeason, List.mem_cons, Option.some.injEq, List.not_mem_nil, or_false] at hf
    rcases hf with rfl | rfl
    · exact ⟨0, rfl⟩
    · exact ⟨2, rfl⟩
  · exact absurd hf (hr f)

theorem exCblSeason_row (lons : List ℚ) (hlon : lons.length = 360) (rest : List (Option MetFile)) (hr : ∀ f, some f ∉ rest)
    (ns : ℕ) (hns : 2 + rest.length = ns * 2) : runCbl 9 (exCblSeason lons ++ rest) ns 2 =
      .ok ((List.range ns).map fun s => List.replicate 360 (if s = 0 then 40 else 90), [90, 40], lons) := by
  have hg := exCblSeason_grid lons rest hr
  have hlen : (exCblSeason lons ++ rest).length = ns * 2 := by rw [← hns]; simp [exCblSeason]; omega
  have hrun := runCbl_eq hg (by simp) hlon 9 ns 2 hlen (by norm_num)
  rw [hrun]
  congr 2
  apply List.map_congr_left
  intro s hs
  rw [List.mem_range] at hs
  by_cases h0 : s = 0
  · subst h0
    rw [if_pos rfl]
    have hw : ∀ j : ℕ, truncInt (windowMean (fun w => peakAt [90, 40] lons (exCblSeason lons ++ rest) 2 0 (w % 360).toNat)
        ((9 - 1) / 2) j) = 40 := by
      intro j
      unfold windowMean
      rw [Finset.sum_congr rfl (fun k _ => exPeak lons rest _ (by omega))]
      rw [Finset.sum_const, Finset.card_range, nsmul_eq_mul]
      have : (((2 * ((9 - 1) / 2) + 1 : ℕ) : ℚ) * (40 : ℚ)) / (2 * (((9 - 1) / 2 : ℕ) : ℚ) + 1) = ((40 : ℤ) : ℚ) := by norm_num
      rw [this, truncInt_int]
    simp only [hw]
    rw [List.map_const', List.length_range]
  · rw [if_neg h0]
    obtain ⟨cbl, hc, hrow⟩ := C213_missing_season hg (by simp) hlon 9 ns 2 hlen
      (by norm_num) s hs (by
        intro d hd
        rw [List.getElem?_append_right (by simp [exCblSeason]; omega)]
        have hlt : s * 2 + d - (exCblSeason lons).length < rest.length := by
          simp only [exCblSeason, List.length_cons, List.length_nil]; omega
        rw [List.getElem?_eq_getElem hlt]
        cases hx : rest[s * 2 + d - (exCblSeason lons).length] with
        | none => rfl
        | some f => exact absurd (hx ▸ List.getElem_mem hlt) (hr f)) 90 (by norm_num)
    rw [hrun] at hc
    simp only [Except.ok.injEq, Prod.mk.injEq] at hc
    rw [← hc.1, List.getElem?_map, List.getElem?_range hs] at hrow
    simpa only [Option.map_some, Option.some.injEq] using hrow

theorem meanCbl_replicate (n : ℕ) (vs : List ℤ) (h : vs ≠ []) : meanCbl (vs.map fun v => List.replicate n v) =
    List.replicate n ((vs.map fun v : ℤ => (v : ℚ)).sum / vs.length) := by
  unfold meanCbl
  obtain ⟨v, vs', rfl⟩ := List.exists_cons_of_ne_nil h
  rw [List.map_cons, List.headD_cons, List.length_replicate]
  apply List.ext_getElem
  · simp
  · intro j g1 g2
    have hj : j < n := by simpa using g1
    simp only [List.getElem_map, List.getElem_range, List.getElem_replicate, ← List.map_cons (f := fun v => List.replicate n v),
      List.map_map, List.length_map]
    congr 2
    apply List.map_congr_left
    intro w _
    simp [hj]

/-- C213 is false: one season of two days has its central latitude at 40 everywhere; adding a season whose files are missing
moves the mean central latitude to 65. -/
theorem C213_counterexample (lons : List ℚ) (hlon : lons.length = 360) :
    ∃ cbl cbl', runCbl 9 (exCblSeason lons) 1 2 = .ok (cbl, [90, 40], lons) ∧
      runCbl 9 (exCblSeason lons ++ [none, none]) 2 2 = .ok (cbl', [90, 40], lons) ∧
      meanCbl cbl = List.replicate 360 40 ∧ meanCbl cbl' = List.replicate 360 65 := by
  have h1 := exCblSeason_row lons hlon [] (by simp) 1 rfl
  have h2 := exCblSeason_row lons hlon [none, none] (by simp) 2 rfl
  rw [List.append_nil] at h1
  refine ⟨_, _, h1, h2, ?_, ?_⟩
  · have := meanCbl_replicate 360 [40] (by simp)
    norm_num at this
    exact this
  · have := meanCbl_replicate 360 [40, 90] (by simp)
    norm_num at this
    exact this

/-! ### C214 -/

theorem mapM_congr_range {β : Type} {f g : ℕ → Except PyErr β} {n : ℕ} (h : ∀ k < n, f k = g k) :
    (List.range n).mapM f = (List.range n).mapM g := by
  have : ∀ l : List ℕ, (∀ k ∈ l, f k = g k) → l.mapM f = l.mapM g := by
    intro l hl
    induction l with
    | nil => rw [List.mapM_nil, List.mapM_nil]
    | cons a l ih =>
      rw [List.mapM_cons, List.mapM_cons, hl a (by simp), ih fun k hk => hl k (by simp [hk])]
  exact this _ fun k hk => h k (List.mem_range.mp hk)

theorem dayColumn {lats lons : List ℚ} {files : List (Option MetFile)} (h : OnGrid lats lons files) (k : ℕ)
    (hk : k < files.length) (j : ℕ) :
    ((fieldOf lats.length lons.length (files.getD k none)).map fun row => row.getD j none) =
      (List.range lats.length).map fun i => valueAt files k i j := by
  have hlen : (fieldOf lats.length lons.length (files.getD k none)).length = lats.length := by
    rw [List.getD_eq_getElem _ _ hk]
    cases hf : files[k] with
    | none => simp [fieldOf]
    | some f => exact (h.shape f (hf ▸ List.getElem_mem hk)).2.2.1
  apply List.ext_getElem
  · rw [List.length_map, hlen]; simp
  · intro i g1 g2
    have hi : i < (fieldOf lats.length lons.length (files.getD k none)).length := by simpa using g1
    simp only [List.getElem_map, List.getElem_range]
    rw [← fieldOf_at (lats := lats) (lons := lons)]
    congr 1
    rw [List.getD_eq_getElem _ _ hi]

/-- The flag of one day and longitude. -/
def iblFlag (meth : String) (db : ℤ) (deltas : List ℤ) (mean : List ℚ) (col : List Cell) (j : ℕ) : Except PyErr ℚ := do
  let b ← blocking1d meth col (mean.getD j 0) db deltas
  return b.2

theorem calcIbl_eq {lats lons : List ℚ} {files : List (Option MetFile)} (h : OnGrid lats lons files) (meth : String) (db : ℤ)
    (deltas : List ℤ) (cbl : List (List ℤ)) (hmean : (meanCbl cbl).length = lons.length) (ns ds : ℕ)
    (hn : files.length = ns * ds) : calcIbl meth db deltas cbl files ns ds =
      (List.range ns).mapM fun s => (List.range ds).mapM fun d => (List.range lons.length).mapM fun j =>
        iblFlag meth db deltas (meanCbl cbl) ((List.range lats.length).map fun i => valueAt files (s * ds + d) i j) j := by
  unfold calcIbl
  rw [readNcMet_ok h ns ds hn]
  simp only [bind, Except.bind]
  rw [List.mapM_map]
  apply mapM_congr_range
  intro s hs
  simp only [Function.comp_def, seasonFields]
  rw [List.mapM_map]
  apply mapM_congr_range
  intro d hd
  have hlt : s * ds + d < files.length := by
    rw [hn]
    calc s * ds + d < s * ds + ds := by omega
      _ = (s + 1) * ds := by ring
      _ ≤ ns * ds := Nat.mul_le_mul_right _ hs
  simp only [Function.comp_def]
  unfold iblDay
  rw [if_neg (by omega), if_neg (by omega)]
  apply mapM_congr_range
  intro j _
  unfold iblFlag
  rw [dayColumn h _ hlt]

/-- The mean of the latitudes of all seasons at longitude `j`. -/
def seasonMean (cbl : List (List ℤ)) (j : ℕ) : ℚ := (cbl.map fun row => ((row.getD j 0 : ℤ) : ℚ)).sum / cbl.length

theorem meanCbl_getD (cbl : List (List ℤ)) (n : ℕ) (hne : cbl ≠ []) (hrow : ∀ r ∈ cbl, r.length = n) :
    (meanCbl cbl).length = n ∧ ∀ j < n, (meanCbl cbl).getD j 0 = seasonMean cbl j := by
  obtain ⟨r, rs, rfl⟩ := List.exists_cons_of_ne_nil hne
  have h0 : r.length = n := hrow r (by simp)
  unfold meanCbl
  refine ⟨by simp [h0], ?_⟩
  intro j hj
  rw [List.getD_eq_getElem _ _ (by simpa [h0] using hj), List.getElem_map, List.getElem_range]
  rfl

theorem mapM_id_omap (f : ℚ → ℚ) : ∀ l : List Cell, (l.map (Option.map f)).mapM (m := Option) id =
    (l.mapM (m := Option) id).map (List.map f)
  | [] => rfl
  | x :: l => by
    rw [List.map_cons, List.mapM_cons, List.mapM_cons, mapM_id_omap f l]
    cases x with
    | none => rfl
    | some x => cases l.mapM (m := Option) id <;> rfl

theorem npMean_affine (c b : ℚ) (l : List Cell) : npMean (l.map (Option.map fun x => c * x + b)) =
    (npMean l).map fun x => c * x + b := by
  unfold npMean
  rw [mapM_id_omap]
  cases l.mapM (m := Option) id with
  | none => rfl
  | some ys =>
    simp only [Option.map_some, List.length_map]
    by_cases h0 : ys.length = 0
    · rw [if_pos h0, if_pos h0]; rfl
    · rw [if_neg h0, if_neg h0, Option.map_some, List.sum_map_add, List.sum_map_mul_left]
      have : (ys.length : ℚ) ≠ 0 := by exact_mod_cast h0
      simp only [List.map_id', List.map_const', List.sum_replicate, nsmul_eq_mul]
      congr 1
      field_simp

theorem blockDiff_affine (c b : ℚ) (col : List Cell) (cbl : ℚ) (db l : ℤ) :
    blockDiff (col.map (Option.map fun x => c * x + b)) cbl db l = (blockDiff col cbl db l).map (c * ·) := by
  unfold blockDiff pySlice
  simp only [List.length_map, ← List.map_take, ← List.map_drop, npMean_affine]
  generalize npMean _ = x
  generalize npMean _ = y
  cases x <;> cases y <;> simp
  ring

theorem npMaxCells_scale (c : ℚ) (hc : 0 < c) (l : List Cell) :
    npMaxCells (l.map (Option.map (c * ·))) = (npMaxCells l).map (Option.map (c * ·)) := by
  cases l with
  | nil => rfl
  | cons x xs =>
    simp only [List.map_cons, npMaxCells, Except.map]
    congr 1
    induction xs generalizing x with
    | nil => rfl
    | cons y ys ih =>
      rw [List.map_cons, List.foldl_cons, List.foldl_cons, ← ih]
      congr 1
      cases x <;> cases y <;> simp
      rw [mul_max_of_nonneg _ _ hc.le]

theorem iblFlag_affine (c b : ℚ) (hc : 0 < c) (meth : String) (db : ℤ) (deltas : List ℤ) (mean : List ℚ) (col : List Cell)
    (j : ℕ) : iblFlag meth db deltas mean (col.map (Option.map fun x => c * x + b)) j = iblFlag meth db deltas mean col j := by
  unfold iblFlag blocking1d
  by_cases hm : meth = "PH"
  · rw [if_pos hm, if_pos hm]
    have : deltas.map (blockDiff (col.map (Option.map fun x => c * x + b)) (mean.getD j 0) db) =
        (deltas.map (blockDiff col (mean.getD j 0) db)).map (Option.map (c * ·)) := by
      rw [List.map_map]
      exact List.map_congr_left fun l _ => blockDiff_affine c b col _ db l
    rw [this, npMaxCells_scale c hc]
    cases npMaxCells (deltas.map (blockDiff col (mean.getD j 0) db)) with
    | error e => rfl
    | ok v =>
      cases v with
      | none => rfl
      | some v =>
        simp only [bind, Except.bind, Except.map, pure, Except.pure, Option.map_some, mul_pos_iff_of_pos_left hc]
  · rw [if_neg hm, if_neg hm]

/-- C214: heights of all files changed by a positive factor and an added amount that may depend on the file and the longitude:
the same flags. -/
theorem C214_invariant {lats lons : List ℚ} {files files' : List (Option MetFile)} (h : OnGrid lats lons files)
    (h' : OnGrid lats lons files') (meth : String) (db : ℤ) (deltas : List ℤ) (cbl : List (List ℤ)) (hne : cbl ≠ [])
    (hrow : ∀ r ∈ cbl, r.length = lons.length) (ns ds : ℕ) (hn : files.length = ns * ds) (hn' : files'.length = ns * ds)
    (c b : ℕ → ℕ → ℚ) (hc : ∀ k j, 0 < c k j)
    (hv : ∀ k i j, valueAt files' k i j = (valueAt files k i j).map fun x => c k j * x + b k j) :
    calcIbl meth db deltas cbl files' ns ds = calcIbl meth db deltas cbl files ns ds := by
  have hm := (meanCbl_getD cbl lons.length hne hrow).1
  rw [calcIbl_eq h meth db deltas cbl hm ns ds hn, calcIbl_eq h' meth db deltas cbl hm ns ds hn']
  refine mapM_congr_range fun s _ => mapM_congr_range fun d _ => mapM_congr_range fun j _ => ?_
  rw [← iblFlag_affine (c (s * ds + d) j) (b (s * ds + d) j) (hc _ _) meth db deltas (meanCbl cbl)
    ((List.range lats.length).map fun i => valueAt files (s * ds + d) i j), List.map_map]
  congr 1
  apply List.map_congr_left
  intro i _
  simp only [Function.comp, hv]

/-- C214: the order of the seasons of the central latitudes has no effect. -/
theorem C214_season_order {cbl cbl' : List (List ℤ)} (hp : cbl'.Perm cbl) (n : ℕ) (hrow : ∀ r ∈ cbl, r.length = n)
    (meth : String) (db : ℤ) (deltas : List ℤ) (files : List (Option MetFile)) (ns ds : ℕ) :
    calcIbl meth db deltas cbl' files ns ds = calcIbl meth db deltas cbl files ns ds := by
  have : meanCbl cbl' = meanCbl cbl := by
    by_cases hne : cbl = []
    · subst hne
      rw [hp.eq_nil]
    have hne' : cbl' ≠ [] := fun h0 => hne (by rw [h0] at hp; exact hp.symm.eq_nil)
    obtain ⟨l1, g1⟩ := meanCbl_getD cbl n hne hrow
    obtain ⟨l2, g2⟩ := meanCbl_getD cbl' n hne' fun r hr => hrow r (hp.mem_iff.mp hr)
    apply List.ext_getElem (l2.trans l1.symm)
    intro j a1 a2
    have hj : j < n := l1 ▸ a2
    have e1 := g1 j hj
    have e2 := g2 j hj
    rw [List.getD_eq_getElem _ _ a2] at e1
    rw [List.getD_eq_getElem _ _ a1] at e2
    rw [e1, e2]
    unfold seasonMean
    rw [(hp.map _).sum_eq, hp.length_eq]
  unfold calcIbl
  rw [this]

theorem blocking1d_ok (meth : String) (col : List Cell) (cbl : ℚ) (db : ℤ) (deltas : List ℤ) (hd : deltas ≠ []) :
    ∃ b, blocking1d meth col cbl db deltas = .ok b := by
  unfold blocking1d
  by_cases hm : meth = "PH"
  · rw [if_pos hm]
    obtain ⟨l, ls, rfl⟩ := List.exists_cons_of_ne_nil hd
    exact ⟨_, rfl⟩
  · rw [if_neg hm]
    exact ⟨_, rfl⟩

/-- The flags of a run, for a list of offsets that is not empty. -/
theorem calcIbl_ok {lats lons : List ℚ} {files : List (Option MetFile)} (h : OnGrid lats lons files) (meth : String) (db : ℤ)
    (deltas : List ℤ) (hd : deltas ≠ []) (cbl : List (List ℤ)) (hne : cbl ≠ []) (hrow : ∀ r ∈ cbl, r.length = lons.length)
    (ns ds : ℕ) (hn : files.length = ns * ds) : ∃ flag : ℕ → ℕ → ℕ → ℚ,
      calcIbl meth db deltas cbl files ns ds = .ok ((List.range ns).map fun s => (List.range ds).map fun d =>
        (List.range lons.length).map (flag s d)) ∧
      ∀ s d j, j < lons.length → ∃ bi, blocking1d meth ((List.range lats.length).map fun i => valueAt files (s * ds + d) i j)
        (seasonMean cbl j) db deltas = .ok (bi, flag s d j) := by
  obtain ⟨hm, hmean⟩ := meanCbl_getD cbl lons.length hne hrow
  have hb := fun s d j => blocking1d_ok meth ((List.range lats.length).map fun i => valueAt files (s * ds + d) i j)
    ((meanCbl cbl).getD j 0) db deltas hd
  choose fl hfl using hb
  refine ⟨fun s d j => (fl s d j).2, ?_, ?_⟩
  · rw [calcIbl_eq h meth db deltas cbl hm ns ds hn]
    refine mapM_ok_of _ _ _ fun s _ => mapM_ok_of _ _ _ fun d _ => mapM_ok_of _ _ _ fun j _ => ?_
    unfold iblFlag
    rw [hfl]
    rfl
  · intro s d j hj
    exact ⟨(fl s d j).1, by rw [← hmean j hj, hfl]⟩

/-- C214: run_Calc_IBL gives a flag for every season, day and longitude.  For a day whose heights at the longitude are present on
whole latitudes from the north pole southwards (`Z`), the central latitude `c` being the mean of all seasons rounded up and the
bands of `w` degrees staying on the grid, the flag is 1 exactly when for one offset the mean height of the northern band exceeds
that of the southern band, and 0 otherwise; a missing file gives flags 0. -/
theorem C214_flags {lats lons : List ℚ} {files : List (Option MetFile)} (h : OnGrid lats lons files) (w : ℕ)
    (deltas : List ℤ) (hd : deltas ≠ []) (cbl : List (List ℤ)) (hne : cbl ≠ []) (hrow : ∀ r ∈ cbl, r.length = lons.length)
    (ns ds : ℕ) (hn : files.length = ns * ds) :
    ∃ flags, calcIbl "PH" (2 * w) deltas cbl files ns ds = .ok flags ∧ flags.length = ns ∧
      ∀ s < ns, ∃ season, flags[s]? = some season ∧ season.length = ds ∧ ∀ d < ds, ∃ day, season[d]? = some day ∧
        day.length = lons.length ∧ ∀ j < lons.length, ∃ flag, day[j]? = some flag ∧ (flag = 0 ∨ flag = 1) ∧
          (files[s * ds + d]? = some none → flag = 0) ∧
          ∀ (Z : ℤ → ℚ) (c : ℤ), (∀ i < lats.length, valueAt files (s * ds + d) i j = some (Z (90 - i))) →
            IsIntegerPart (90 - (cbl.map fun row => ((row.getD j 0 : ℤ) : ℚ)).sum / cbl.length) (90 - c) →
            (∀ l ∈ deltas, c + l + w ≤ 90 ∧ 90 - (c + l) + w < lats.length) →
            (flag = 1 ↔ ∃ l ∈ deltas, southMean Z (c + l) w < northMean Z (c + l) w) := by
  obtain ⟨flag, hrun, hflag⟩ := calcIbl_ok h "PH" (2 * w) deltas hd cbl hne hrow ns ds hn
  refine ⟨_, hrun, by simp, ?_⟩
  intro s hs
  refine ⟨_, by rw [List.getElem?_map, List.getElem?_range hs]; rfl, by simp, ?_⟩
  intro d hd'
  refine ⟨_, by rw [List.getElem?_map, List.getElem?_range hd']; rfl, by simp, ?_⟩
  intro j hj
  refine ⟨flag s d j, by rw [List.getElem?_map, List.getElem?_range hj]; rfl, ?_, ?_, ?_⟩
  · obtain ⟨bi, hb⟩ := hflag s d j hj
    unfold blocking1d at hb
    rw [if_pos rfl] at hb
    cases hmax : npMaxCells (deltas.map (blockDiff ((List.range lats.length).map fun i =>
        valueAt files (s * ds + d) i j) (seasonMean cbl j) (2 * w))) with
    | error e => rw [hmax] at hb; exact absurd hb (by simp [bind, Except.bind])
    | ok v =>
      rw [hmax] at hb
      simp only [bind, Except.bind, pure, Except.pure, Except.ok.injEq, Prod.mk.injEq] at hb
      rw [← hb.2]
      cases v with
      | none => exact .inl rfl
      | some v => dsimp only; split <;> simp
  · intro hmiss
    obtain ⟨bi, hb⟩ := hflag s d j hj
    have hcol : ((List.range lats.length).map fun i => valueAt files (s * ds + d) i j) =
        List.replicate lats.length none := by
      rw [← List.length_range (n := lats.length), ← List.map_const', List.length_range]
      apply List.map_congr_left
      intro i _
      unfold valueAt
      rw [hmiss]
      rfl
    have hnone : ∀ l ∈ deltas, blockDiff (List.replicate lats.length none) (seasonMean cbl j) (2 * w) l = none := by
      intro l _
      have hmean : ∀ n, npMean (List.replicate n none) = none := by
        intro n
        cases n with
        | zero => rfl
        | succ n => rfl
      unfold blockDiff pySlice
      simp only [List.take_replicate, List.drop_replicate, hmean]
    unfold blocking1d at hb
    rw [if_pos rfl, hcol] at hb
    obtain ⟨l, ls, rfl⟩ := List.exists_cons_of_ne_nil hd
    rw [npMaxCells_missing _ (List.mem_map.mpr ⟨l, by simp, hnone l (by simp)⟩)] at hb
    simp only [bind, Except.bind, pure, Except.pure, Except.ok.injEq, Prod.mk.injEq] at hb
    exact hb.2.symm
  · intro Z c hZ hc hgrid
    obtain ⟨bi, hb⟩ := hflag s d j hj
    obtain ⟨bi', flag', hrun', _, _, _, hiff⟩ := C125_blocked_partial Z
      ((List.range lats.length).map fun i => valueAt files (s * ds + d) i j) (by
        intro i hi
        have hi' : i < lats.length := by simpa using hi
        rw [List.getElem?_map, List.getElem?_range hi', Option.map_some, hZ i hi']) (seasonMean cbl j) c w deltas hc hd
      (by simpa using hgrid)
    rw [hb] at hrun'
    simp only [Except.ok.injEq, Prod.mk.injEq] at hrun'
    rw [hrun'.2]
    exact hiff

/-- The hypotheses of C212 hold for a season of two days. -/
example (lons : List ℚ) (hlon : lons.length = 360) :
    OnGrid [90, 40] lons (exCblSeason lons) ∧ (exCblSeason lons).length = 1 * 2 ∧
      ∀ s < 1, ∀ i < 2, ∀ j < 360, seasonValues (exCblSeason lons) 2 s i j ≠ [] := by
  have hg := exCblSeason_grid lons [] (by simp)
  rw [List.append_nil] at hg
  refine ⟨hg, rfl, ?_⟩
  intro s hs i hi j hj
  obtain ⟨h0, h1⟩ := exCblSeason_values lons [] j (hlon ▸ hj)
  rw [List.append_nil] at h0 h1
  obtain rfl : s = 0 := by omega
  rcases (show i = 0 ∨ i = 1 by omega) with rfl | rfl
  · rw [h0]; simp
  · rw [h1]; simp

/-- One longitude, heights growing to the north on the first day, to the south on the second; the third is missing. -/
def exBlockFiles : List (Option MetFile) :=
  [some ⟨(List.range 91).map fun i => 90 - (i : ℚ), [0], (List.range 91).map fun i => [some (5400 - 2 * (i : ℚ))]⟩,
   some ⟨(List.range 91).map fun i => 90 - (i : ℚ), [0], (List.range 91).map fun i => [some (5200 + 2 * (i : ℚ))]⟩, none]

example : calcIbl "PH" 30 [-5, 0, 5] [[40], [50]] exBlockFiles 1 3 = .ok [[[1], [0], [0]]] := by decide +kernel

end Metcalcpy.Props
