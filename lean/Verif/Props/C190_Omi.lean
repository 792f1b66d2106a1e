/-
C190  The band-pass filter keeps the periods between its limits (false: it keeps those between twice its limits).
C191  omi leaves the data as they are (false: the trend of the caller's array is removed).
C192  The OMI index does not depend on linear trends of the data.
C193  The OMI index does not depend on the unit of the data; its first component has standard deviation one.
-/
import Verif.Model.OmiIndex
import Verif.Lemmas.Dft
import Verif.Props.C143_OmiFilter
import Mathlib.Algebra.BigOperators.Ring.Finset
import Mathlib.Algebra.BigOperators.Field
import Mathlib.Tactic.Ring
import Mathlib.Tactic.FieldSimp
import Mathlib.Tactic.Linarith

namespace Metcalcpy.Props
open Metcalcpy

/-! ### Linear maps -/

theorem mapM_scaled {α β : Type} (f g : α → Except PyErr β) (h : β → β) (hg : ∀ a, g a = (f a).map h) :
    ∀ l : List α, l.mapM g = (l.mapM f).map (List.map h)
  | [] => rfl
  | a :: l => by
    rw [List.mapM_cons, List.mapM_cons, hg a, mapM_scaled f g h hg l]
    cases f a with
    | error e => rfl
    | ok b => cases l.mapM f <;> rfl

theorem detrendSeries_scale (n : ℕ) (c : ℝ) (x : ℕ → ℝ) (t : ℕ) :
    detrendSeries n (fun s => c * x s) t = c * detrendSeries n x t := by
  unfold detrendSeries
  dsimp only
  rw [← Finset.mul_sum, mul_div_assoc]
  have : ∀ s : ℕ, ((s : ℝ) - (∑ s ∈ Finset.range n, (s : ℝ)) / n) * (c * x s - c * ((∑ s ∈ Finset.range n, x s) / n)) =
      c * (((s : ℝ) - (∑ s ∈ Finset.range n, (s : ℝ)) / n) * (x s - (∑ s ∈ Finset.range n, x s) / n)) := fun s => by ring
  simp only [this]
  rw [← Finset.mul_sum, mul_div_assoc]
  ring

theorem taperToZero_scale (c : ℝ) (data : List ℝ) (w : ℕ) :
    taperToZero (data.map (c * ·)) w = (taperToZero data w).map (List.map (c * ·)) := by
  unfold taperToZero
  simp only [List.length_map, List.map_eq_nil_iff]
  split
  · rfl
  · simp only [Except.map]
    congr 1
    apply List.ext_getElem
    · simp
    · intro i h1 h2
      simp only [List.getElem_mapIdx, List.getElem_map]
      split <;> split <;> ring

theorem omiSeries_scale (n nt w : ℕ) (c : ℝ) (x : ℕ → ℝ) :
    omiSeries n nt w (fun t => c * x t) = (omiSeries n nt w x).map (List.map (c * ·)) := by
  unfold omiSeries
  rw [← taperToZero_scale, List.map_map]
  congr 2
  funext t
  simp only [Function.comp]
  split
  · exact detrendSeries_scale n c x t
  · simp

theorem fft2_scale (nt nl : ℕ) (c : ℝ) (x : ℕ → ℕ → ℝ) (i j : ℕ) :
    fft2 nt nl (fun t m => c * x t m) i j = c * fft2 nt nl x i j := by
  unfold fft2
  simp only [Complex.ofReal_mul, mul_assoc, Finset.mul_sum]

theorem ifft2Real_scale (nt nl : ℕ) (c : ℝ) (Z : ℕ → ℕ → ℂ) (t m : ℕ) :
    ifft2Real nt nl (fun i j => c * Z i j) t m = c * ifft2Real nt nl Z t m := by
  unfold ifft2Real
  simp only [mul_assoc, Complex.re_ofReal_mul, ← Finset.mul_sum]
  ring

theorem zeroAt_scale (c : ℂ) (S : ℕ → ℕ → ℂ) (p : ℕ × ℕ) :
    zeroAt (fun i j => c * S i j) p = fun i j => c * zeroAt S p i j := by
  funext i j
  unfold zeroAt
  split <;> simp

theorem zeroAll_scale (c : ℂ) : ∀ (ps : List (ℕ × ℕ)) (S : ℕ → ℕ → ℂ),
    ps.foldl zeroAt (fun i j => c * S i j) = fun i j => c * ps.foldl zeroAt S i j
  | [], _ => rfl
  | p :: ps, S => by rw [List.foldl_cons, zeroAt_scale, zeroAll_scale c ps, List.foldl_cons]

theorem bandStep_scale (keep : ℕ → ℕ → Bool) (nt nl : ℕ) (c : ℂ) : ∀ (ps : List (ℕ × ℕ)) (S : ℕ → ℕ → ℂ),
    ps.foldl (bandStep keep nt nl) (fun i j => c * S i j) = fun i j => c * ps.foldl (bandStep keep nt nl) S i j
  | [], _ => rfl
  | p :: ps, S => by
    rw [List.foldl_cons, List.foldl_cons, ← bandStep_scale keep nt nl c ps]
    congr 1
    unfold bandStep
    split
    · rfl
    · exact zeroAll_scale c _ S

theorem omiFilter_scale (nt nl : ℕ) (dt pmin pmax wmin wmax : ℚ) (c : ℂ) (S : ℕ → ℕ → ℂ) :
    omiFilter nt nl dt pmin pmax wmin wmax (fun i j => c * S i j) = fun i j => c * omiFilter nt nl dt pmin pmax wmin wmax S i j := by
  have hr : ∀ (kt kl : ℕ) (S : ℕ → ℕ → ℂ), roll2 nt nl kt kl (fun i j => c * S i j) = fun i j => c * roll2 nt nl kt kl S i j :=
    fun _ _ _ => rfl
  unfold omiFilter
  dsimp only
  rw [hr, hr, bandStep_scale, hr, hr]

theorem omiFilterLat_scale (n nl : ℕ) (dt pmin pmax wmin wmax : ℚ) (c : ℝ) (x : ℕ → ℕ → ℝ) :
    omiFilterLat n nl dt pmin pmax wmin wmax (fun t l => c * x t l) =
      (omiFilterLat n nl dt pmin pmax wmin wmax x).map fun y t l => c * y t l := by
  unfold omiFilterLat
  dsimp only
  generalize n + 1000 = nt
  rw [mapM_scaled (fun l => omiSeries n nt (truncInt (10 * (1 / dt))).toNat fun t => x t l) _ (List.map (c * ·))
    (fun l => omiSeries_scale _ _ _ c _)]
  cases (List.range nl).mapM (fun l => omiSeries n nt (truncInt (10 * (1 / dt))).toNat fun t => x t l) with
  | error e => rfl
  | ok ss =>
    simp only [Except.map, bind, Except.bind, pure, Except.pure]
    congr 1
    funext t m
    rw [← ifft2Real_scale]
    congr 1
    rw [← omiFilter_scale]
    congr 1
    funext i j
    rw [← fft2_scale]
    congr 1
    funext t m
    simp [List.getD_eq_getElem?_getD]
    cases ss[m]? <;> simp
    rename_i r
    cases r[t]? <;> simp

theorem dot_scale (c : ℝ) : ∀ e v : List ℝ, (List.zipWith (· * ·) e (v.map (c * ·))).sum = c * (List.zipWith (· * ·) e v).sum
  | [], _ => by simp
  | _ :: _, [] => by simp
  | a :: e, b :: v => by
    simp only [List.map_cons, List.zipWith_cons_cons, List.sum_cons, dot_scale c e v]
    ring

theorem lstsqTwo_scale (c : ℝ) (v e1 e2 : List ℝ) :
    lstsqTwo (v.map (c * ·)) e1 e2 = (c * (lstsqTwo v e1 e2).1, c * (lstsqTwo v e1 e2).2) := by
  unfold lstsqTwo
  dsimp only
  rw [dot_scale, dot_scale]
  split
  · ext <;> dsimp only <;> ring
  · split
    · ext <;> dsimp only <;> ring
    · simp

theorem omiDay_scale (eof1 eof2 : List (List ℝ)) (doy : ℕ) (c : ℝ) (v : List ℝ) :
    omiDay eof1 eof2 doy (v.map (c * ·)) = (omiDay eof1 eof2 doy v).map fun r => (c * r.1, c * r.2) := by
  unfold omiDay
  split
  · simp only [List.length_map, lstsqTwo_scale]
    split <;> rfl
  · rfl

theorem stdReal_scale (c : ℝ) (xs : List ℝ) : stdReal (xs.map (c * ·)) = |c| * stdReal xs := by
  have hs : ∀ xs : List ℝ, (xs.map (c * ·)).sum = c * xs.sum := fun xs => by
    rw [List.sum_map_mul_left]
    simp
  unfold stdReal
  dsimp only
  rw [hs, List.length_map, List.map_map, mul_div_assoc]
  have e : (fun x : ℝ => (x - c * (xs.sum / xs.length)) ^ 2) ∘ (c * ·) = fun x => c ^ 2 * (x - xs.sum / xs.length) ^ 2 := by
    funext x
    simp only [Function.comp]
    ring
  rw [e, List.sum_map_mul_left, mul_div_assoc, Real.sqrt_mul (sq_nonneg c), Real.sqrt_sq_eq_abs]

/-- The raw coefficients of omi; its result in terms of them. -/
noncomputable def omiRaw (nm nl : ℕ) (dt : ℚ) (times : List (ℚ × ℕ)) (eof1 eof2 : List (List ℝ)) (x : ℕ → ℕ → ℕ → ℝ) :
    Except PyErr (List (ℝ × ℝ)) := do
  let lats ← (List.range nm).mapM fun i => omiFilterLat times.length nl dt 20 96 (-720) 720 fun t l => x t i l
  (times.zipIdx).mapM fun p => omiDay eof1 eof2 p.1.2 (lats.flatMap fun y => (List.range nl).map fun l => y p.2 l)

theorem omiRaw_scale (nm nl : ℕ) (dt : ℚ) (times : List (ℚ × ℕ)) (eof1 eof2 : List (List ℝ)) (x : ℕ → ℕ → ℕ → ℝ) (c : ℝ) :
    omiRaw nm nl dt times eof1 eof2 (fun t i l => c * x t i l) =
      (omiRaw nm nl dt times eof1 eof2 x).map (List.map fun r => (c * r.1, c * r.2)) := by
  unfold omiRaw
  rw [mapM_scaled (fun i => omiFilterLat times.length nl dt 20 96 (-720) 720 fun t l => x t i l) _ (fun y t l => c * y t l)
    (fun i => omiFilterLat_scale _ _ _ _ _ _ _ c _)]
  cases (List.range nm).mapM (fun i => omiFilterLat times.length nl dt 20 96 (-720) 720 fun t l => x t i l) with
  | error e => rfl
  | ok lats =>
    simp only [Except.map, bind, Except.bind]
    refine (mapM_scaled _ _ (fun r : ℝ × ℝ => (c * r.1, c * r.2)) (fun p => ?_) _)
    rw [← omiDay_scale]
    congr 1
    rw [List.flatMap_map, List.map_flatMap]
    congr 1
    funext y
    rw [List.map_map]
    rfl

theorem omi_eq (nm nl : ℕ) (a b : ℚ × ℕ) (ts : List (ℚ × ℕ)) (eof1 eof2 : List (List ℝ)) (x : ℕ → ℕ → ℕ → ℝ) :
    (omi nm nl (a :: b :: ts) eof1 eof2 x).2 =
      if 2 ^ 17 < (a :: b :: ts).length then .error .valueError
      else if b.1 - a.1 = 0 then .error .overflowError
      else (omiRaw nm nl (b.1 - a.1) (a :: b :: ts) eof1 eof2 x).map fun raw =>
        if stdReal (raw.map Prod.fst) = 0 then none
        else some (raw.map (fun r => r.1 * (1 / stdReal (raw.map Prod.fst))), raw.map fun r => r.2 * (1 / stdReal (raw.map Prod.fst))) := by
  unfold omi omiRaw
  dsimp only
  split
  · rfl
  · split
    · rfl
    · generalize (List.range nm).mapM (fun i => omiFilterLat (a :: b :: ts).length nl (b.1 - a.1) 20 96 (-720) 720 fun t l => x t i l) = L
      cases L with
      | error e => rfl
      | ok lats =>
        simp only [bind, Except.bind]
        generalize List.mapM (fun p : (ℚ × ℕ) × ℕ => omiDay eof1 eof2 p.1.2
          (lats.flatMap fun y => (List.range nl).map fun l => y p.2 l)) (a :: b :: ts).zipIdx = R
        cases R with
        | error e => rfl
        | ok raw =>
          simp only [Except.map]
          split <;> rfl

/-- C193: multiplying the data by a number other than 0 leaves the index unchanged, or changes its sign if the number is negative;
exceptions and undefined results stay. -/
theorem C193_scale (nm nl : ℕ) (times : List (ℚ × ℕ)) (eof1 eof2 : List (List ℝ)) (x : ℕ → ℕ → ℕ → ℝ) (c : ℝ) (hc : c ≠ 0) :
    (omi nm nl times eof1 eof2 fun t i l => c * x t i l).2 =
      (omi nm nl times eof1 eof2 x).2.map (Option.map fun r =>
        if 0 < c then r else (r.1.map (fun v => -v), r.2.map fun v => -v)) := by
  match times with
  | [] => rfl
  | [_] => rfl
  | a :: b :: ts =>
    rw [omi_eq, omi_eq, omiRaw_scale]
    split
    · rfl
    · split
      · rfl
      · cases omiRaw nm nl (b.1 - a.1) (a :: b :: ts) eof1 eof2 x with
        | error e => rfl
        | ok raw =>
          have e : (raw.map fun r : ℝ × ℝ => (c * r.1, c * r.2)).map Prod.fst = (raw.map Prod.fst).map (c * ·) := by
            simp [List.map_map, Function.comp_def]
          simp only [Except.map, e, stdReal_scale, mul_eq_zero, abs_eq_zero, hc, false_or]
          split
          · rfl
          · next hs =>
            have key : ∀ v : ℝ, c * v * (1 / (|c| * stdReal (raw.map Prod.fst))) =
                if 0 < c then v * (1 / stdReal (raw.map Prod.fst)) else -(v * (1 / stdReal (raw.map Prod.fst))) := by
              intro v
              split
              · next h => rw [abs_of_pos h]; field_simp
              · next h =>
                rw [abs_of_neg (lt_of_le_of_ne (not_lt.mp h) hc)]
                field_simp
            simp only [List.map_map, Function.comp_def, key, Option.map_some]
            split <;> rfl

/-- C193: the first component of the index has standard deviation one. -/
theorem C193_normalised (nm nl : ℕ) (times : List (ℚ × ℕ)) (eof1 eof2 : List (List ℝ)) (x : ℕ → ℕ → ℕ → ℝ) (p1 p2 : List ℝ)
    (h : (omi nm nl times eof1 eof2 x).2 = .ok (some (p1, p2))) :
    Real.sqrt ((p1.map fun v => (v - p1.sum / p1.length) ^ 2).sum / p1.length) = 1 := by
  show stdReal p1 = 1
  match times with
  | [] => cases h
  | [_] => cases h
  | a :: b :: ts =>
    rw [omi_eq] at h
    split at h
    · cases h
    · split at h
      · cases h
      · cases hr : omiRaw nm nl (b.1 - a.1) (a :: b :: ts) eof1 eof2 x with
        | error e => rw [hr] at h; cases h
        | ok raw =>
          rw [hr] at h
          simp only [Except.map] at h
          split at h
          · cases h
          · next hs =>
            obtain ⟨rfl, -⟩ := Prod.mk.inj (Option.some.inj (Except.ok.inj h))
            have e : (raw.map fun r : ℝ × ℝ => r.1 * (1 / stdReal (raw.map Prod.fst))) =
                (raw.map Prod.fst).map ((1 / stdReal (raw.map Prod.fst)) * ·) := by
              simp [List.map_map, Function.comp_def, mul_comm]
            have hpos : 0 < stdReal (raw.map Prod.fst) := lt_of_le_of_ne (Real.sqrt_nonneg _) (Ne.symm hs)
            rw [e, stdReal_scale, abs_of_pos (by positivity)]
            field_simp

/-! ### Trends -/

theorem detrendSeries_congr (n : ℕ) (x y : ℕ → ℝ) (h : ∀ t, t < n → x t = y t) (t : ℕ) (ht : t < n) :
    detrendSeries n x t = detrendSeries n y t := by
  unfold detrendSeries
  dsimp only
  have e : ∑ s ∈ Finset.range n, x s = ∑ s ∈ Finset.range n, y s := Finset.sum_congr rfl fun s hs => h s (Finset.mem_range.mp hs)
  have e2 : ∀ tm ym : ℝ, ∑ s ∈ Finset.range n, ((s : ℝ) - tm) * (x s - ym) = ∑ s ∈ Finset.range n, ((s : ℝ) - tm) * (y s - ym) :=
    fun tm ym => Finset.sum_congr rfl fun s hs => by rw [h s (Finset.mem_range.mp hs)]
  rw [h t ht, e, e2]

theorem spread_pos (n : ℕ) (hn : 2 ≤ n) (m : ℝ) : 0 < ∑ s ∈ Finset.range n, ((s : ℝ) - m) ^ 2 := by
  by_contra hc
  have h0 := (Finset.sum_eq_zero_iff_of_nonneg (s := Finset.range n) (f := fun s : ℕ => ((s : ℝ) - m) ^ 2)
    (fun s _ => sq_nonneg ((s : ℝ) - m))).mp
    (le_antisymm (not_lt.mp hc) (Finset.sum_nonneg fun s _ => sq_nonneg ((s : ℝ) - m)))
  have a := h0 0 (Finset.mem_range.mpr (by omega))
  have b := h0 1 (Finset.mem_range.mpr (by omega))
  have a' : ((0 : ℕ) : ℝ) - m = 0 := by simpa using a
  have b' : ((1 : ℕ) : ℝ) - m = 0 := by simpa using b
  push_cast at a' b'
  linarith

theorem detrendSeries_trend (n : ℕ) (hn : 2 ≤ n) (x : ℕ → ℝ) (a b : ℝ) (t : ℕ) :
    detrendSeries n (fun s => x s + (a + b * s)) t = detrendSeries n x t := by
  unfold detrendSeries
  dsimp only
  set tm := (∑ s ∈ Finset.range n, (s : ℝ)) / n with htm
  set xm := (∑ s ∈ Finset.range n, x s) / n with hxm
  have hn0 : (n : ℝ) ≠ 0 := by positivity
  have hmean : (∑ s ∈ Finset.range n, (x s + (a + b * (s : ℝ)))) / n = xm + (a + b * tm) := by
    rw [Finset.sum_add_distrib, Finset.sum_add_distrib, ← Finset.mul_sum, Finset.sum_const, Finset.card_range, hxm, htm, nsmul_eq_mul]
    field_simp
  rw [hmean]
  have hS : ∑ s ∈ Finset.range n, ((s : ℝ) - tm) * (x s + (a + b * s) - (xm + (a + b * tm))) =
      (∑ s ∈ Finset.range n, ((s : ℝ) - tm) * (x s - xm)) + b * ∑ s ∈ Finset.range n, ((s : ℝ) - tm) ^ 2 := by
    rw [Finset.mul_sum, ← Finset.sum_add_distrib]
    exact Finset.sum_congr rfl fun s _ => by ring
  have hpos := spread_pos n hn tm
  rw [hS, add_div, mul_div_cancel_right₀ _ hpos.ne']
  ring

/-- C192: adding to the series of every point any linear function of time leaves the index as it is, exceptions included. -/
theorem C192_trend (nm nl : ℕ) (times : List (ℚ × ℕ)) (eof1 eof2 : List (List ℝ)) (x : ℕ → ℕ → ℕ → ℝ) (a b : ℕ → ℕ → ℝ) :
    (omi nm nl times eof1 eof2 fun t i l => x t i l + (a i l + b i l * t)).2 = (omi nm nl times eof1 eof2 x).2 := by
  match times with
  | [] => rfl
  | [_] => rfl
  | p :: q :: ts =>
    rw [omi_eq, omi_eq]
    have e : omiRaw nm nl (q.1 - p.1) (p :: q :: ts) eof1 eof2 (fun t i l => x t i l + (a i l + b i l * t)) =
        omiRaw nm nl (q.1 - p.1) (p :: q :: ts) eof1 eof2 x := by
      unfold omiRaw omiFilterLat omiSeries
      simp only [detrendSeries_trend (p :: q :: ts).length (by simp) _ _ _ _]
    rw [e]

/-! ### The caller's data -/

theorem detrend_sums (n : ℕ) (hn : 2 ≤ n) (x : ℕ → ℝ) :
    ∑ t ∈ Finset.range n, detrendSeries n x t = 0 ∧ ∑ t ∈ Finset.range n, (t : ℝ) * detrendSeries n x t = 0 := by
  have hn0 : (n : ℝ) ≠ 0 := by positivity
  unfold detrendSeries
  dsimp only
  set tm := (∑ s ∈ Finset.range n, (s : ℝ)) / n with htm
  set xm := (∑ s ∈ Finset.range n, x s) / n with hxm
  have ht : ∑ s ∈ Finset.range n, ((s : ℝ) - tm) = 0 := by
    rw [Finset.sum_sub_distrib, Finset.sum_const, Finset.card_range, nsmul_eq_mul, htm]
    field_simp
    ring
  have hx : ∑ s ∈ Finset.range n, (x s - xm) = 0 := by
    rw [Finset.sum_sub_distrib, Finset.sum_const, Finset.card_range, nsmul_eq_mul, hxm]
    field_simp
    ring
  set sl := (∑ s ∈ Finset.range n, ((s : ℝ) - tm) * (x s - xm)) / ∑ s ∈ Finset.range n, ((s : ℝ) - tm) ^ 2 with hsl
  have hpos := (spread_pos n hn tm).ne'
  have h1 : ∑ t ∈ Finset.range n, (x t - (xm + sl * (t - tm))) = 0 := by
    have : ∀ t ∈ Finset.range n, x t - (xm + sl * (t - tm)) = (x t - xm) - sl * (t - tm) := fun t _ => by ring
    rw [Finset.sum_congr rfl this, Finset.sum_sub_distrib, ← Finset.mul_sum, hx, ht]
    ring
  have h2 : ∑ t ∈ Finset.range n, ((t : ℝ) - tm) * (x t - (xm + sl * (t - tm))) = 0 := by
    have : ∀ t ∈ Finset.range n, ((t : ℝ) - tm) * (x t - (xm + sl * (t - tm))) =
        ((t : ℝ) - tm) * (x t - xm) - sl * ((t : ℝ) - tm) ^ 2 := fun t _ => by ring
    rw [Finset.sum_congr rfl this, Finset.sum_sub_distrib, ← Finset.mul_sum, hsl, div_mul_cancel₀ _ hpos, sub_self]
  refine ⟨h1, ?_⟩
  have : ∀ t ∈ Finset.range n, (t : ℝ) * (x t - (xm + sl * (t - tm))) =
      ((t : ℝ) - tm) * (x t - (xm + sl * (t - tm))) + tm * (x t - (xm + sl * (t - tm))) := fun t _ => by ring
  rw [Finset.sum_congr rfl this, Finset.sum_add_distrib, ← Finset.mul_sum, h1, h2]
  ring

theorem detrendSeries_linear (n : ℕ) (x : ℕ → ℝ) : ∃ a b : ℝ, ∀ t : ℕ, detrendSeries n x t = x t + (a + b * t) := by
  unfold detrendSeries
  dsimp only
  generalize (∑ s ∈ Finset.range n, ((s : ℝ) - (∑ s ∈ Finset.range n, (s : ℝ)) / n) * (x s - (∑ s ∈ Finset.range n, x s) / n)) /
    (∑ s ∈ Finset.range n, ((s : ℝ) - (∑ s ∈ Finset.range n, (s : ℝ)) / n) ^ 2) = sl
  generalize (∑ s ∈ Finset.range n, (s : ℝ)) / n = tm
  generalize (∑ s ∈ Finset.range n, x s) / n = xm
  exact ⟨-xm + sl * tm, -sl, fun t => by ring⟩

/-- C191, what is true: the values of each point are changed by a linear function
of time, after which they have neither mean nor trend. -/
theorem C191_after (nm nl : ℕ) (times : List (ℚ × ℕ)) (eof1 eof2 : List (List ℝ)) (x : ℕ → ℕ → ℕ → ℝ) (h2 : 2 ≤ times.length)
    (i l : ℕ) (hi : i < nm) (hl : l < nl) :
    (∃ a b : ℝ, ∀ t < times.length, (omi nm nl times eof1 eof2 x).1 t i l = x t i l + (a + b * t)) ∧
      ∑ t ∈ Finset.range times.length, (omi nm nl times eof1 eof2 x).1 t i l = 0 ∧
      ∑ t ∈ Finset.range times.length, (t : ℝ) * (omi nm nl times eof1 eof2 x).1 t i l = 0 := by
  match times, h2 with
  | p :: q :: ts, h2 =>
    have e : ∀ t ∈ Finset.range (p :: q :: ts).length, (omi nm nl (p :: q :: ts) eof1 eof2 x).1 t i l =
        detrendSeries (p :: q :: ts).length (fun s => x s i l) t := by
      intro t ht
      show (if t < (p :: q :: ts).length ∧ i < nm ∧ l < nl then _ else _) = _
      rw [if_pos ⟨Finset.mem_range.mp ht, hi, hl⟩]
    have hs := detrend_sums (p :: q :: ts).length h2 fun s => x s i l
    refine ⟨?_, ?_, ?_⟩
    · obtain ⟨a, b, hab⟩ := detrendSeries_linear (p :: q :: ts).length fun s => x s i l
      exact ⟨a, b, fun t ht => by rw [e t (Finset.mem_range.mpr ht), hab]⟩
    · rw [Finset.sum_congr rfl e]; exact hs.1
    · rw [Finset.sum_congr rfl fun t ht => by rw [e t ht]]; exact hs.2

theorem detrendSeries_of_sums (n : ℕ) (x : ℕ → ℝ) (h0 : ∑ s ∈ Finset.range n, x s = 0)
    (h1 : ∑ s ∈ Finset.range n, (s : ℝ) * x s = 0) (t : ℕ) : detrendSeries n x t = x t := by
  unfold detrendSeries
  dsimp only
  have : ∀ tm : ℝ, ∑ s ∈ Finset.range n, ((s : ℝ) - tm) * (x s - 0) = 0 := by
    intro tm
    have e : ∀ s ∈ Finset.range n, ((s : ℝ) - tm) * (x s - 0) = (s : ℝ) * x s - tm * x s := fun s _ => by ring
    rw [Finset.sum_congr rfl e, Finset.sum_sub_distrib, ← Finset.mul_sum, h0, h1]
    ring
  rw [h0, zero_div, this]
  ring

/-- C191, what is true: data whose series have neither mean nor trend are left as they are. -/
theorem C191_unchanged_partial (nm nl : ℕ) (times : List (ℚ × ℕ)) (eof1 eof2 : List (List ℝ)) (x : ℕ → ℕ → ℕ → ℝ)
    (h0 : ∀ i < nm, ∀ l < nl, ∑ t ∈ Finset.range times.length, x t i l = 0)
    (h1 : ∀ i < nm, ∀ l < nl, ∑ t ∈ Finset.range times.length, (t : ℝ) * x t i l = 0) :
    (omi nm nl times eof1 eof2 x).1 = x := by
  match times, h0, h1 with
  | [], _, _ => rfl
  | [_], _, _ => rfl
  | p :: q :: ts, h0, h1 =>
    funext t i l
    show (if t < (p :: q :: ts).length ∧ i < nm ∧ l < nl then _ else _) = _
    split
    · next h => exact detrendSeries_of_sums _ _ (h0 i h.2.1 l h.2.2) (h1 i h.2.1 l h.2.2) t
    · rfl

theorem detrendSeries_twice (n : ℕ) (hn : 2 ≤ n) (x y : ℕ → ℝ) (h : ∀ t < n, y t = detrendSeries n x t) (t : ℕ) (ht : t < n) :
    detrendSeries n y t = detrendSeries n x t := by
  obtain ⟨h0, h1⟩ := detrend_sums n hn x
  rw [detrendSeries_congr n y (detrendSeries n x) h t ht, detrendSeries_of_sums n _ h0 h1]

theorem mapM_congr_mem {α β : Type} (f g : α → Except PyErr β) : ∀ l : List α, (∀ a ∈ l, f a = g a) → l.mapM f = l.mapM g
  | [], _ => rfl
  | a :: l, h => by
    rw [List.mapM_cons, List.mapM_cons, h a (by simp), mapM_congr_mem f g l fun b hb => h b (by simp [hb])]

theorem omiFilterLat_congr (n nl : ℕ) (dt pmin pmax wmin wmax : ℚ) (x y : ℕ → ℕ → ℝ)
    (h : ∀ l < nl, ∀ t < n, detrendSeries n (fun s => x s l) t = detrendSeries n (fun s => y s l) t) :
    omiFilterLat n nl dt pmin pmax wmin wmax x = omiFilterLat n nl dt pmin pmax wmin wmax y := by
  unfold omiFilterLat
  dsimp only
  generalize n + 1000 = nt
  have e : (List.range nl).mapM (fun l => omiSeries n nt (truncInt (10 * (1 / dt))).toNat fun t => x t l) =
      (List.range nl).mapM (fun l => omiSeries n nt (truncInt (10 * (1 / dt))).toNat fun t => y t l) := by
    apply mapM_congr_mem
    intro l hl
    unfold omiSeries
    congr 1
    apply List.map_congr_left
    intro t _
    split
    · next ht => exact h l (List.mem_range.mp hl) t ht
    · rfl
  rw [e]

/-- C191, what is true: although the array of the caller has been changed, a second call with it returns the same index. -/
theorem C191_again (nm nl : ℕ) (times : List (ℚ × ℕ)) (eof1 eof2 : List (List ℝ)) (x : ℕ → ℕ → ℕ → ℝ) :
    (omi nm nl times eof1 eof2 (omi nm nl times eof1 eof2 x).1).2 = (omi nm nl times eof1 eof2 x).2 := by
  match times with
  | [] => rfl
  | [_] => rfl
  | p :: q :: ts =>
    rw [omi_eq, omi_eq]
    have e : omiRaw nm nl (q.1 - p.1) (p :: q :: ts) eof1 eof2 (omi nm nl (p :: q :: ts) eof1 eof2 x).1 =
        omiRaw nm nl (q.1 - p.1) (p :: q :: ts) eof1 eof2 x := by
      have h : (List.range nm).mapM (fun i => omiFilterLat (p :: q :: ts).length nl (q.1 - p.1) 20 96 (-720) 720
            fun t l => (omi nm nl (p :: q :: ts) eof1 eof2 x).1 t i l) =
          (List.range nm).mapM (fun i => omiFilterLat (p :: q :: ts).length nl (q.1 - p.1) 20 96 (-720) 720 fun t l => x t i l) := by
        refine mapM_congr_mem _ _ _ fun i hi => omiFilterLat_congr _ _ _ _ _ _ _ _ _ fun l hl t ht => ?_
        refine detrendSeries_twice _ (by simp) _ _ (fun s hs => ?_) t ht
        show (if s < (p :: q :: ts).length ∧ i < nm ∧ l < nl then _ else _) = _
        rw [if_pos ⟨hs, List.mem_range.mp hi, hl⟩]
      unfold omiRaw
      rw [h]
    rw [e]

/-- C191 is false: one point whose value is 1 at two times; after the call both are 0. -/
theorem C191_overwrite_counterexample :
    ∃ (times : List (ℚ × ℕ)) (eof1 eof2 : List (List ℝ)) (x : ℕ → ℕ → ℕ → ℝ),
      x 0 0 0 = 1 ∧ (omi 1 1 times eof1 eof2 x).1 0 0 0 = 0 := by
  refine ⟨[(0, 1), (1, 2)], [[1], [1]], [[1], [1]], fun _ _ _ => 1, rfl, ?_⟩
  show (if 0 < [((0 : ℚ), 1), (1, 2)].length ∧ 0 < 1 ∧ 0 < 1 then detrendSeries 2 (fun _ => 1) 0 else 1) = 0
  rw [if_pos (by simp)]
  unfold detrendSeries
  norm_num [Finset.sum_range_succ]

/-! ### A concrete run -/

theorem taperToZero_zero (data : List ℝ) : taperToZero data 0 = .ok data := by
  unfold taperToZero
  rw [if_neg (by omega)]
  dsimp only
  congr 1
  apply List.ext_getElem
  · simp
  · intro i h1 h2
    simp only [List.getElem_mapIdx]
    rw [if_neg (by omega), if_neg (by omega)]

/-- Three values 1, -2, 1 every eleven days. -/
def omiPulse (t : ℕ) : ℝ := if t = 0 then 1 else if t = 1 then -2 else if t = 2 then 1 else 0

theorem omiPulse_fft (nt : ℕ) (hnt : 3 ≤ nt) (i : ℕ) :
    fft2 nt 1 (fun t m => if m = 0 ∧ t < nt then omiPulse t else 0) i 0 =
      1 - 2 * Complex.exp (-((2 * Real.pi * i / nt : ℝ) * Complex.I)) + Complex.exp (-((2 * Real.pi * i / nt : ℝ) * Complex.I)) ^ 2 := by
  unfold fft2
  simp only [Finset.sum_range_one]
  obtain ⟨k, rfl⟩ : ∃ k, nt = k + 3 := ⟨nt - 3, by omega⟩
  rw [← Finset.sum_subset (Finset.range_subset_range.mpr (by omega : 3 ≤ k + 3))]
  · rw [Finset.sum_range_succ, Finset.sum_range_succ, Finset.sum_range_one, ← Complex.exp_nat_mul]
    simp only [omiPulse, true_and, show 0 < k + 3 by omega, show 1 < k + 3 by omega, show 2 < k + 3 by omega, if_true]
    norm_num
    rw [sub_eq_add_neg, neg_mul_eq_mul_neg]
    congr 2
    · rw [← mul_neg]
      congr 3
      ring_nf
    · congr 1
      ring
  · intro t _ ht
    have : 3 ≤ t := by simpa using ht
    simp [omiPulse, show t ≠ 0 by omega, show t ≠ 1 by omega, show t ≠ 2 by omega]

theorem omiPulse_filter (nt : ℕ) (hnt : 3 ≤ nt) (P : ℕ → Prop) (Z : ℕ → ℕ → ℂ) (F : ℕ → ℂ)
    (hF : ∀ i, F i = 1 - 2 * Complex.exp (-((2 * Real.pi * i / nt : ℝ) * Complex.I)) +
      Complex.exp (-((2 * Real.pi * i / nt : ℝ) * Complex.I)) ^ 2)
    (hZ : ∀ i < nt, (P i → Z i 0 = F i) ∧ (¬ P i → Z i 0 = 0)) (k : ℕ) (hk : k < nt) (hPk : P k)
    (hc : Real.cos (2 * Real.pi * k / nt) ≠ 1) : ifft2Real nt 1 Z 0 0 ≠ ifft2Real nt 1 Z 1 0 := by
  have hn : (0 : ℝ) < nt := by exact_mod_cast (by omega : 0 < nt)
  have hd : ∀ i < nt, (Z i 0 * Complex.exp (2 * Real.pi * Complex.I * ((i : ℂ) * (0 : ℕ) / nt + ((0 : ℕ) : ℂ) * (0 : ℕ) / (1 : ℕ)))).re -
      (Z i 0 * Complex.exp (2 * Real.pi * Complex.I * ((i : ℂ) * (1 : ℕ) / nt + ((0 : ℕ) : ℂ) * (0 : ℕ) / (1 : ℕ)))).re =
      (Z i 0 * (1 - Complex.exp ((2 * Real.pi * i / nt : ℝ) * Complex.I))).re := by
    intro i _
    rw [← Complex.sub_re, ← mul_sub]
    congr 3
    · simp
    · congr 1
      push_cast
      ring
  have hv : ∀ i < nt, P i → (Z i 0 * (1 - Complex.exp ((2 * Real.pi * i / nt : ℝ) * Complex.I))).re =
      2 * (1 - Real.cos (2 * Real.pi * i / nt)) ^ 2 := by
    intro i hi hP
    rw [(hZ i hi).1 hP, hF i]
    generalize 2 * Real.pi * (i : ℝ) / nt = θ
    have e : Complex.exp (-((θ : ℂ) * Complex.I)) = ((Real.cos θ : ℝ) : ℂ) - (Real.sin θ : ℝ) * Complex.I := by
      rw [← neg_mul, Complex.exp_mul_I, Complex.cos_neg, Complex.sin_neg, Complex.ofReal_cos, Complex.ofReal_sin]
      ring
    rw [e, Complex.exp_mul_I, ← Complex.ofReal_cos, ← Complex.ofReal_sin]
    have h1 := Real.sin_sq_add_cos_sq θ
    simp only [Complex.mul_re, Complex.sub_re, Complex.add_re, Complex.one_re, Complex.ofReal_re, Complex.ofReal_im, Complex.I_re,
      Complex.I_im, Complex.sub_im, Complex.add_im, Complex.one_im, Complex.mul_im, pow_two, Complex.re_ofNat, Complex.im_ofNat]
    have h2 : Real.sin θ ^ 2 = 1 - Real.cos θ ^ 2 := by linarith
    ring_nf
    rw [h2]
    ring
  intro heq
  have hsum : ∑ i ∈ Finset.range nt, (Z i 0 * (1 - Complex.exp ((2 * Real.pi * i / nt : ℝ) * Complex.I))).re = 0 := by
    rw [← Finset.sum_congr rfl fun i hi => hd i (Finset.mem_range.mp hi), Finset.sum_sub_distrib, sub_eq_zero]
    unfold ifft2Real at heq
    simp only [Finset.sum_range_one] at heq
    exact mul_left_cancel₀ (by positivity) heq
  have hnn : ∀ i ∈ Finset.range nt, 0 ≤ (Z i 0 * (1 - Complex.exp ((2 * Real.pi * i / nt : ℝ) * Complex.I))).re := by
    intro i hi
    have hi := Finset.mem_range.mp hi
    by_cases hP : P i
    · rw [hv i hi hP]; positivity
    · rw [(hZ i hi).2 hP]; simp
  have h0 := (Finset.sum_eq_zero_iff_of_nonneg hnn).mp hsum k (Finset.mem_range.mpr hk)
  rw [hv k hk hPk] at h0
  have : (1 - Real.cos (2 * Real.pi * k / nt)) ^ 2 = 0 := by linarith
  exact hc (by have := pow_eq_zero_iff (two_ne_zero) |>.mp this; linarith)

theorem stdReal_zero_eq (a b c : ℝ) (h : stdReal [a, b, c] = 0) : a = b := by
  unfold stdReal at h
  dsimp only at h
  rw [Real.sqrt_eq_zero (by simp; positivity)] at h
  simp only [List.map_cons, List.map_nil, List.sum_cons, List.sum_nil, List.length_cons, List.length_nil] at h
  norm_num at h
  generalize (a + (b + c)) / 3 = m at h
  have ha : (a - m) ^ 2 = 0 := by nlinarith [sq_nonneg (a - m), sq_nonneg (b - m), sq_nonneg (c - m)]
  have hb : (b - m) ^ 2 = 0 := by nlinarith [sq_nonneg (a - m), sq_nonneg (b - m), sq_nonneg (c - m)]
  have ha' := pow_eq_zero_iff (two_ne_zero) |>.mp ha
  have hb' := pow_eq_zero_iff (two_ne_zero) |>.mp hb
  linarith

theorem omiPulse_lat : ∃ y : ℕ → ℕ → ℝ, omiFilterLat 3 1 11 20 96 (-720) 720 (fun t _ => omiPulse t) = .ok y ∧ y 0 0 ≠ y 1 0 := by
  have hw : (truncInt (10 * (1 / (11 : ℚ)))).toNat = 0 := by decide +kernel
  unfold omiFilterLat
  dsimp only
  rw [hw]
  have hnt : 3 ≤ 3 + 1000 := by omega
  have hodd : (3 + 1000) % 2 = 1 := rfl
  have hk : 300 < 3 + 1000 := by omega
  have hk' : 299 ≤ (3 + 1000) / 2 := by omega
  have hk'' : ¬ (3 + 1000) - 299 ≤ (3 + 1000) / 2 := by omega
  have hper : PeriodInBand (((3 + 1000 : ℕ) : ℚ) * 11) 20 96 299 := by
    unfold PeriodInBand
    norm_num
  have hcos : Real.cos (2 * Real.pi * (300 : ℕ) / ((3 + 1000 : ℕ) : ℝ)) ≠ 1 := by
    intro h
    have := (Real.cos_eq_one_iff_of_lt_of_lt (by
      have := Real.pi_pos
      have : 0 ≤ 2 * Real.pi * (300 : ℕ) / ((3 + 1000 : ℕ) : ℝ) := by positivity
      linarith) (by
      have := Real.pi_pos
      rw [div_lt_iff₀ (by norm_num)]
      push_cast
      linarith)).mp h
    have hp := Real.pi_pos
    have : 0 < 2 * Real.pi * (300 : ℕ) / ((3 + 1000 : ℕ) : ℝ) := by positivity
    linarith
  generalize 3 + 1000 = nt at *
  have hser : (List.range 1).mapM (fun l => omiSeries 3 nt 0 fun t => (fun t _ => omiPulse t) t l) =
      .ok [(List.range nt).map omiPulse] := by
    have : omiSeries 3 nt 0 omiPulse = .ok ((List.range nt).map omiPulse) := by
      unfold omiSeries
      rw [taperToZero_zero]
      congr 1
      apply List.map_congr_left
      intro t _
      split
      · exact detrendSeries_of_sums 3 omiPulse (by norm_num [Finset.sum_range_succ, omiPulse]) (by norm_num [Finset.sum_range_succ, omiPulse]) t
      · simp [omiPulse, show t ≠ 0 by omega, show t ≠ 1 by omega, show t ≠ 2 by omega]
    show (do let r ← omiSeries 3 nt 0 omiPulse; _) = _
    rw [this]
    rfl
  rw [hser]
  refine ⟨_, rfl, ?_⟩
  have hz : (fun t m => ([(List.range nt).map omiPulse].getD m []).getD t 0) = fun t m => if m = 0 ∧ t < nt then omiPulse t else 0 := by
    funext t m
    cases m with
    | zero =>
      by_cases h : t < nt
      · simp [h, List.getD_eq_getElem?_getD]
      · simp [h, List.getD_eq_getElem?_getD]
    | succ m => simp [List.getD_eq_getElem?_getD]
  rw [hz]
  have hK := (keep_iff nt 1 11 20 96 720 (by norm_num) (by norm_num) (by norm_num) (by norm_num) 299 0 (by omega) hk' (by omega)).mpr
    ⟨hper, by simp⟩
  refine omiPulse_filter nt hnt (fun i => Survives (fun i j => insideBand (1 / 96) (1 / 20) (-720) 720 (freqAxis nt (1 / 11) i) (wnAxis 1 j))
    nt 1 (shiftedPos nt i) (shiftedPos 1 0)) _ _ (fun i => omiPulse_fft nt hnt i) (fun i hi => ?_) 300 hk ?_ hcos
  · rw [omiFilter_eq nt 1 11 20 96 (-720) 720 _ i 0 hi (by omega)]
    exact ⟨fun h => if_pos h, fun h => if_neg h⟩
  · have h1 : shiftedPos 1 0 = 0 := rfl
    rw [h1, shiftedPos_odd hodd (by omega) hk]
    refine ⟨fun _ => hK, fun h => ?_⟩
    rw [mirrorPos_of_pos (by omega) (by omega)] at h
    exact absurd h hk''

/-- The index of the three values exists: a case of `C193_normalised`. -/
theorem omiPulse_run : ∃ p, (omi 1 1 [(0, 1), (11, 1), (22, 1)] [[1]] [[0]] fun t _ _ => omiPulse t).2 = .ok (some p) := by
  obtain ⟨y, hy, hne⟩ := omiPulse_lat
  rw [omi_eq]
  rw [if_neg (by simp), if_neg (by norm_num)]
  have hr : omiRaw 1 1 ((11 : ℚ) - 0) [(0, 1), (11, 1), (22, 1)] [[1]] [[0]] (fun t _ _ => omiPulse t) =
      .ok [(y 0 0, 0), (y 1 0, 0), (y 2 0, 0)] := by
    unfold omiRaw
    have hl : (List.range 1).mapM (fun i => omiFilterLat [((0 : ℚ), 1), (11, 1), (22, 1)].length 1 (11 - 0) 20 96 (-720) 720
        fun t l => (fun t _ _ => omiPulse t : ℕ → ℕ → ℕ → ℝ) t i l) = .ok [y] := by
      rw [sub_zero]
      show (do let r ← omiFilterLat 3 1 11 20 96 (-720) 720 (fun t _ => omiPulse t); _) = _
      rw [hy]
      rfl
    rw [hl]
    have hday : ∀ v : ℝ, omiDay [[1]] [[0]] 1 [v] = .ok (v, 0) := by
      intro v
      simp [omiDay, lstsqTwo]
    show List.mapM _ _ = _
    simp [List.zipIdx, hday, pure, Except.pure, bind, Except.bind]
  rw [hr]
  simp only [Except.map, List.map_cons, List.map_nil]
  rw [if_neg (fun h => hne (stdReal_zero_eq _ _ _ h))]
  exact ⟨_, rfl⟩

example : ∃ p1 p2 : List ℝ, (omi 1 1 [(0, 1), (11, 1), (22, 1)] [[1]] [[0]] fun t _ _ => omiPulse t).2 = .ok (some (p1, p2)) ∧
    Real.sqrt ((p1.map fun v => (v - p1.sum / p1.length) ^ 2).sum / p1.length) = 1 := by
  obtain ⟨⟨p1, p2⟩, h⟩ := omiPulse_run
  exact ⟨p1, p2, h, C193_normalised _ _ _ _ _ _ _ _ h⟩

/-- A falling trend and another unit: the same index. -/
example : (omi 1 1 [(0, 1), (11, 1), (22, 1)] [[1]] [[0]] fun t _ _ => 1000 * (omiPulse t + (240 + (-3) * t))).2 =
    (omi 1 1 [(0, 1), (11, 1), (22, 1)] [[1]] [[0]] fun t _ _ => omiPulse t).2 := by
  rw [C193_scale _ _ _ _ _ (fun t _ _ => omiPulse t + (240 + (-3) * (t : ℝ))) 1000 (by norm_num),
    C192_trend 1 1 _ _ _ (fun t _ _ => omiPulse t) (fun _ _ => 240) (fun _ _ => -3)]
  obtain ⟨p, h⟩ := omiPulse_run
  rw [h]
  simp [Except.map]

example : (omi 1 1 [(0, 1), (11, 1), (22, 1)] [[1]] [[0]] fun t _ _ => omiPulse t).1 = fun t _ _ => omiPulse t :=
  C191_unchanged_partial _ _ _ _ _ _ (fun _ _ _ _ => by norm_num [Finset.sum_range_succ, omiPulse])
    (fun _ _ _ _ => by norm_num [Finset.sum_range_succ, omiPulse])

example (i l : ℕ) (hi : i < 1) (hl : l < 1) : ∑ t ∈ Finset.range 3,
    (omi 1 1 [(0, 1), (11, 1), (22, 1)] [[1]] [[0]] fun t _ _ => (t : ℝ) ^ 2).1 t i l = 0 :=
  (C191_after 1 1 [(0, 1), (11, 1), (22, 1)] [[1]] [[0]] (fun t _ _ => (t : ℝ) ^ 2) (by simp) i l hi hl).2.1

/-! ### The band-pass filter -/

theorem sum_cos_int (n : ℕ) (hn : 0 < n) (a : ℤ) :
    ∑ s ∈ Finset.range n, Real.cos (2 * Real.pi * a * s / n) = if (n : ℤ) ∣ a then (n : ℝ) else 0 := by
  have h := congrArg Complex.re (sum_unit n hn a)
  rw [Complex.re_sum] at h
  rw [← Finset.sum_congr rfl fun s _ => ?_, h]
  · split <;> simp
  · unfold unit
    have : (2 * Real.pi * Complex.I * (a * s / n) : ℂ) = ((2 * Real.pi * a * s / n : ℝ) : ℂ) * Complex.I := by push_cast; ring
    rw [this, Complex.exp_ofReal_mul_I_re]

theorem sum_sin_int (n : ℕ) (hn : 0 < n) (a : ℤ) : ∑ s ∈ Finset.range n, Real.sin (2 * Real.pi * a * s / n) = 0 := by
  have h := congrArg Complex.im (sum_unit n hn a)
  rw [Complex.im_sum] at h
  rw [← Finset.sum_congr rfl fun s _ => ?_, h]
  · split <;> simp
  · unfold unit
    have : (2 * Real.pi * Complex.I * (a * s / n) : ℂ) = ((2 * Real.pi * a * s / n : ℝ) : ℂ) * Complex.I := by push_cast; ring
    rw [this, Complex.exp_ofReal_mul_I_im]

theorem sum_sin_cos (n : ℕ) (hn : 0 < n) (m k : ℕ) :
    ∑ s ∈ Finset.range n, Real.sin (2 * Real.pi * m * s / n) * Real.cos (2 * Real.pi * k * s / n) = 0 := by
  have e : ∀ s ∈ Finset.range n, Real.sin (2 * Real.pi * m * s / n) * Real.cos (2 * Real.pi * k * s / n) =
      (Real.sin (2 * Real.pi * ((m + k : ℤ) : ℝ) * s / n) + Real.sin (2 * Real.pi * ((m - k : ℤ) : ℝ) * s / n)) / 2 := by
    intro s _
    have e1 : 2 * Real.pi * ((m + k : ℤ) : ℝ) * s / n = 2 * Real.pi * m * s / n + 2 * Real.pi * k * s / n := by push_cast; ring
    have e2 : 2 * Real.pi * ((m - k : ℤ) : ℝ) * s / n = 2 * Real.pi * m * s / n - 2 * Real.pi * k * s / n := by push_cast; ring
    rw [e1, e2, Real.sin_add, Real.sin_sub]
    ring
  rw [Finset.sum_congr rfl e, ← Finset.sum_div, Finset.sum_add_distrib, sum_sin_int n hn, sum_sin_int n hn]
  simp

theorem sum_sin_sin (n : ℕ) (m k : ℕ) (hm : 0 < m) (hm2 : 2 * m < n) (hk : 0 < k) (hk2 : 2 * k < n) :
    ∑ s ∈ Finset.range n, Real.sin (2 * Real.pi * m * s / n) * Real.sin (2 * Real.pi * k * s / n) = if k = m then (n : ℝ) / 2 else 0 := by
  have hn : 0 < n := by omega
  have e : ∀ s ∈ Finset.range n, Real.sin (2 * Real.pi * m * s / n) * Real.sin (2 * Real.pi * k * s / n) =
      (Real.cos (2 * Real.pi * ((m - k : ℤ) : ℝ) * s / n) - Real.cos (2 * Real.pi * ((m + k : ℤ) : ℝ) * s / n)) / 2 := by
    intro s _
    have e1 : 2 * Real.pi * ((m + k : ℤ) : ℝ) * s / n = 2 * Real.pi * m * s / n + 2 * Real.pi * k * s / n := by push_cast; ring
    have e2 : 2 * Real.pi * ((m - k : ℤ) : ℝ) * s / n = 2 * Real.pi * m * s / n - 2 * Real.pi * k * s / n := by push_cast; ring
    rw [e1, e2, Real.cos_add, Real.cos_sub]
    ring
  rw [Finset.sum_congr rfl e, ← Finset.sum_div, Finset.sum_sub_distrib, sum_cos_int n hn, sum_cos_int n hn]
  have h1 : ¬ (n : ℤ) ∣ (m : ℤ) + k := fun h => by have := Int.le_of_dvd (by omega) h; omega
  rw [if_neg h1]
  by_cases hkm : k = m
  · subst hkm
    simp
  · have h2 : ¬ (n : ℤ) ∣ (m : ℤ) - k := fun h => by
      have := Int.eq_zero_of_abs_lt_dvd h (by rw [abs_lt]; omega)
      omega
    simp [hkm, h2]

theorem sum_cos_cos (n : ℕ) (m k : ℕ) (hm : 0 < m) (hm2 : 2 * m < n) (hk2 : 2 * k ≤ n) :
    ∑ s ∈ Finset.range n, Real.cos (2 * Real.pi * m * s / n) * Real.cos (2 * Real.pi * k * s / n) = if k = m then (n : ℝ) / 2 else 0 := by
  have hn : 0 < n := by omega
  have e : ∀ s ∈ Finset.range n, Real.cos (2 * Real.pi * m * s / n) * Real.cos (2 * Real.pi * k * s / n) =
      (Real.cos (2 * Real.pi * ((m - k : ℤ) : ℝ) * s / n) + Real.cos (2 * Real.pi * ((m + k : ℤ) : ℝ) * s / n)) / 2 := by
    intro s _
    have e1 : 2 * Real.pi * ((m + k : ℤ) : ℝ) * s / n = 2 * Real.pi * m * s / n + 2 * Real.pi * k * s / n := by push_cast; ring
    have e2 : 2 * Real.pi * ((m - k : ℤ) : ℝ) * s / n = 2 * Real.pi * m * s / n - 2 * Real.pi * k * s / n := by push_cast; ring
    rw [e1, e2, Real.cos_add, Real.cos_sub]
    ring
  rw [Finset.sum_congr rfl e, ← Finset.sum_div, Finset.sum_add_distrib, sum_cos_int n hn, sum_cos_int n hn]
  have h1 : ¬ (n : ℤ) ∣ (m : ℤ) + k := fun h => by have := Int.le_of_dvd (by omega) h; omega
  rw [if_neg h1]
  by_cases hkm : k = m
  · subst hkm
    simp
  · have h2 : ¬ (n : ℤ) ∣ (m : ℤ) - k := fun h => by
      have := Int.eq_zero_of_abs_lt_dvd h (by rw [abs_lt]; omega)
      omega
    simp [hkm, h2]

theorem bandpassKeeps_pos (n : ℕ) (dt a b : ℚ) (hdt : 0 < dt) (ha : 0 < a) (j : ℕ) (hj : 0 < j) (hjn : j < n) :
    bandpassKeeps n dt a b j = decide (2 * j < n / 2 * 2 ∧ a ≤ n * dt / j ∧ n * dt / j ≤ b) := by
  have hn : (0 : ℚ) < n := by exact_mod_cast (by omega : 0 < n)
  have hj' : (0 : ℚ) < j := by exact_mod_cast hj
  unfold bandpassKeeps fftfreqQ
  by_cases h : j < n / 2
  · rw [if_pos h, if_neg (by positivity)]
    have e : 1 / ((j : ℚ) / (n * dt)) = n * dt / j := one_div_div _ _
    rw [e]
    have h' : 2 * j < n / 2 * 2 := by omega
    simp only [h', true_and]
    by_cases h1 : a ≤ n * dt / j <;> by_cases h2 : n * dt / j ≤ b <;>
      simp only [h1, h2, not_lt.mpr, not_le.mp, decide_true, decide_false, Bool.not_true, Bool.not_false, Bool.and_true, Bool.and_false,
        and_true, and_false, true_and, false_and, not_false_eq_true, lt_of_not_ge]
  · rw [if_neg h]
    have hneg : ((j : ℚ) - n) / (n * dt) < 0 := div_neg_of_neg_of_pos (by
      have : (j : ℚ) < n := by exact_mod_cast hjn
      linarith) (by positivity)
    rw [if_neg hneg.ne]
    have h' : ¬ 2 * j < n / 2 * 2 := by omega
    have : 1 / (((j : ℚ) - n) / (n * dt)) < a := lt_trans (one_div_neg.mpr hneg) ha
    simp only [h', this, false_and, decide_true, decide_false, Bool.not_true, Bool.false_and]

/-- The transform of a sine wave. -/
theorem rfftPacked_sin (n m : ℕ) (hm : 0 < m) (hm2 : 2 * m < n) (j : ℕ) (hj : j < n) (he : n % 2 = 0) :
    rfftPacked n (fun s => Real.sin (2 * Real.pi * m * s / n)) j = if j = 2 * m then -((n : ℝ) / 2) else 0 := by
  have hn : 0 < n := by omega
  unfold rfftPacked
  split
  · rw [if_neg (by omega)]
    exact_mod_cast sum_sin_int n hn m
  · split
    · rw [if_neg (by omega)]
      exact sum_sin_cos n hn m _
    · rw [sum_sin_sin n m (j / 2) hm hm2 (by omega) (by omega)]
      by_cases h : j = 2 * m
      · rw [if_pos (by omega), if_pos h]
      · rw [if_neg (by omega), if_neg h, neg_zero]

/-- The transform of a cosine wave. -/
theorem rfftPacked_cos (n m : ℕ) (hm : 0 < m) (hm2 : 2 * m < n) (j : ℕ) (hj : j < n) :
    rfftPacked n (fun s => Real.cos (2 * Real.pi * m * s / n)) j = if j + 1 = 2 * m then (n : ℝ) / 2 else 0 := by
  have hn : 0 < n := by omega
  unfold rfftPacked
  split
  · rw [if_neg (by omega)]
    have := sum_cos_int n hn m
    rw [if_neg (fun h => by have := Int.le_of_dvd (by omega) h; omega)] at this
    exact_mod_cast this
  · split
    · rw [sum_cos_cos n m ((j + 1) / 2) hm hm2 (by omega)]
      by_cases h : j + 1 = 2 * m
      · rw [if_pos (by omega), if_pos h]
      · rw [if_neg (by omega), if_neg h]
    · rw [if_neg (by omega)]
      have := sum_sin_cos n hn (j / 2) m
      simp only [mul_comm (Real.cos _)]
      rw [this, neg_zero]

/-- C190, what is true: the filter lets a sine wave with a whole number of turns pass unchanged if half its period is between the limits
and it turns less than n/4 times, and removes it otherwise. -/
theorem C190_sine_partial (n m : ℕ) (dt a b : ℚ) (he : n % 2 = 0) (hdt : 0 < dt) (ha : 0 < a) (hm : 0 < m) (hm2 : 2 * m < n) (t : ℕ) :
    bandpassFilter n dt a b (fun s => Real.sin (2 * Real.pi * m * s / n)) t =
      if 4 * m < n ∧ 2 * a ≤ n * dt / m ∧ n * dt / m ≤ 2 * b then Real.sin (2 * Real.pi * m * t / n) else 0 := by
  have hn : (n : ℝ) ≠ 0 := by exact_mod_cast (by omega : n ≠ 0)
  unfold bandpassFilter irfftPacked
  have hz : ∀ j < n, j ≠ 2 * m → (if bandpassKeeps n dt a b j then
      rfftPacked n (fun s => Real.sin (2 * Real.pi * m * s / n)) j else 0) = 0 := by
    intro j hj hne
    split
    · rw [rfftPacked_sin n m hm hm2 j hj he, if_neg hne]
    · rfl
  dsimp only
  rw [hz 0 (by omega) (by omega), hz (n - 1) (by omega) (by omega),
    Finset.sum_eq_single_of_mem (m - 1) (Finset.mem_range.mpr (by omega))]
  · rw [hz (2 * (m - 1) + 1) (by omega) (by omega), show 2 * (m - 1) + 2 = 2 * m by omega, show m - 1 + 1 = m by omega,
      rfftPacked_sin n m hm hm2 _ (by omega) he, if_pos rfl, bandpassKeeps_pos n dt a b hdt ha (2 * m) (by omega) (by omega)]
    have hmq : (0 : ℚ) < m := by exact_mod_cast hm
    have e1 : (n : ℚ) * dt / ((2 * m : ℕ) : ℚ) = n * dt / m / 2 := by push_cast; field_simp
    have e : (2 * (2 * m) < n / 2 * 2 ∧ a ≤ n * dt / ((2 * m : ℕ) : ℚ) ∧ n * dt / ((2 * m : ℕ) : ℚ) ≤ b) ↔
        (4 * m < n ∧ 2 * a ≤ n * dt / m ∧ n * dt / m ≤ 2 * b) := by
      rw [e1]
      constructor
      · rintro ⟨h1, h2, h3⟩
        exact ⟨by omega, by linarith, by linarith⟩
      · rintro ⟨h1, h2, h3⟩
        exact ⟨by omega, by linarith, by linarith⟩
    simp only [decide_eq_true_eq, e]
    split
    · field_simp
      ring
    · simp
  · intro k hk hne
    have := Finset.mem_range.mp hk
    rw [hz (2 * k + 1) (by omega) (by omega), hz (2 * k + 2) (by omega) (by omega)]
    ring

/-- C190, what is true: the same for cosine waves, which are judged by the period n·dt/(2m-1). -/
theorem C190_cosine_partial (n m : ℕ) (dt a b : ℚ) (he : n % 2 = 0) (hdt : 0 < dt) (ha : 0 < a) (hm : 0 < m) (hm2 : 2 * m < n) (t : ℕ) :
    bandpassFilter n dt a b (fun s => Real.cos (2 * Real.pi * m * s / n)) t =
      if 4 * m - 2 < n ∧ a ≤ n * dt / (2 * m - 1) ∧ n * dt / (2 * m - 1) ≤ b then Real.cos (2 * Real.pi * m * t / n) else 0 := by
  have hn : (n : ℝ) ≠ 0 := by exact_mod_cast (by omega : n ≠ 0)
  unfold bandpassFilter irfftPacked
  have hz : ∀ j < n, j + 1 ≠ 2 * m → (if bandpassKeeps n dt a b j then
      rfftPacked n (fun s => Real.cos (2 * Real.pi * m * s / n)) j else 0) = 0 := by
    intro j hj hne
    split
    · rw [rfftPacked_cos n m hm hm2 j hj, if_neg hne]
    · rfl
  dsimp only
  rw [hz 0 (by omega) (by omega), hz (n - 1) (by omega) (by omega),
    Finset.sum_eq_single_of_mem (m - 1) (Finset.mem_range.mpr (by omega))]
  · rw [hz (2 * (m - 1) + 2) (by omega) (by omega), show m - 1 + 1 = m by omega,
      rfftPacked_cos n m hm hm2 _ (by omega), if_pos (show 2 * (m - 1) + 1 + 1 = 2 * m by omega),
      bandpassKeeps_pos n dt a b hdt ha _ (by omega) (by omega)]
    have e1 : ((2 * (m - 1) + 1 : ℕ) : ℚ) = 2 * m - 1 := by
      have : ((2 * (m - 1) + 1 : ℕ) : ℚ) + 1 = ((2 * m : ℕ) : ℚ) := by exact_mod_cast (by omega)
      push_cast at this ⊢
      linarith
    have e2 : (2 * (2 * (m - 1) + 1) < n / 2 * 2) ↔ 4 * m - 2 < n := by omega
    simp only [decide_eq_true_eq, e1, e2]
    split
    · field_simp
      ring
    · simp
  · intro k hk hne
    have := Finset.mem_range.mp hk
    rw [hz (2 * k + 1) (by omega) (by omega), hz (2 * k + 2) (by omega) (by omega)]
    ring

/-- C190 is false: with the limits 20 and 96 days and daily values, a wave of period 32 days is removed and one of period 128 days kept
(2^17 values, as in the code). -/
theorem C190_band_counterexample :
    (∀ t, bandpassFilter (2 ^ 17) 1 20 96 (fun s => Real.sin (2 * Real.pi * (4096 : ℕ) * s / (2 ^ 17 : ℕ))) t = 0) ∧
      ∀ t, bandpassFilter (2 ^ 17) 1 20 96 (fun s => Real.sin (2 * Real.pi * (1024 : ℕ) * s / (2 ^ 17 : ℕ))) t =
        Real.sin (2 * Real.pi * (1024 : ℕ) * t / (2 ^ 17 : ℕ)) := by
  constructor
  · intro t
    rw [C190_sine_partial (2 ^ 17) 4096 1 20 96 (by norm_num) (by norm_num) (by norm_num) (by norm_num) (by norm_num), if_neg]
    norm_num
  · intro t
    rw [C190_sine_partial (2 ^ 17) 1024 1 20 96 (by norm_num) (by norm_num) (by norm_num) (by norm_num) (by norm_num), if_pos]
    norm_num

/-- Eight values, one a day: the sine of period 8 passes limits 3 and 5, the cosine of the same period limits 7 and 9. -/
example : (∀ t, bandpassFilter 8 1 3 5 (fun s => Real.sin (2 * Real.pi * (1 : ℕ) * s / (8 : ℕ))) t =
      Real.sin (2 * Real.pi * (1 : ℕ) * t / (8 : ℕ))) ∧
    ∀ t, bandpassFilter 8 1 7 9 (fun s => Real.cos (2 * Real.pi * (1 : ℕ) * s / (8 : ℕ))) t =
      Real.cos (2 * Real.pi * (1 : ℕ) * t / (8 : ℕ)) := by
  constructor <;> intro t
  · rw [C190_sine_partial 8 1 1 3 5 (by norm_num) (by norm_num) (by norm_num) (by norm_num) (by norm_num), if_pos (by norm_num)]
  · rw [C190_cosine_partial 8 1 1 7 9 (by norm_num) (by norm_num) (by norm_num) (by norm_num) (by norm_num), if_pos (by norm_num)]

/-- C190, the mean: a constant added to the series does not pass the filter, whatever the limits. -/
theorem C190_mean (n : ℕ) (dt a b : ℚ) (he : n % 2 = 0) (x : ℕ → ℝ) (c : ℝ) (t : ℕ) :
    bandpassFilter n dt a b (fun s => x s + c) t = bandpassFilter n dt a b x t := by
  rcases Nat.eq_zero_or_pos n with rfl | hn
  · simp [bandpassFilter, irfftPacked]
  have key : ∀ j < n, (if bandpassKeeps n dt a b j then rfftPacked n (fun s => x s + c) j else 0) =
      if bandpassKeeps n dt a b j then rfftPacked n x j else 0 := by
    intro j hj
    rcases Nat.eq_zero_or_pos j with rfl | hj0
    · have : bandpassKeeps n dt a b 0 = false := by
        unfold bandpassKeeps fftfreqQ
        rw [if_pos (by rw [if_pos (by omega)]; simp)]
      rw [this]
      simp
    · congr 1
      unfold rfftPacked
      simp only [if_neg (show ¬ j = 0 by omega)]
      by_cases hp : j % 2 = 1
      · simp only [if_pos hp, add_mul, Finset.sum_add_distrib, ← Finset.mul_sum]
        have h := sum_cos_int n hn (((j + 1) / 2 : ℕ) : ℤ)
        rw [if_neg (by
          intro hd
          have := Int.le_of_dvd (by omega) hd
          omega)] at h
        rw [Int.cast_natCast] at h
        rw [h]
        ring
      · simp only [if_neg hp, add_mul, Finset.sum_add_distrib, ← Finset.mul_sum]
        have h := sum_sin_int n hn ((j / 2 : ℕ) : ℤ)
        rw [Int.cast_natCast] at h
        rw [h]
        ring
  unfold bandpassFilter irfftPacked
  dsimp only
  rw [key 0 hn, key (n - 1) (by omega)]
  congr 3
  refine Finset.sum_congr rfl fun k hk => ?_
  rw [Finset.mem_range] at hk
  rw [key _ (by omega), key _ (by omega)]

/-- An oscillation of 128 days around 250 W/m². -/
example (t : ℕ) : bandpassFilter (2 ^ 17) 1 20 96 (fun s => Real.sin (2 * Real.pi * (1024 : ℕ) * s / (2 ^ 17 : ℕ)) + 250) t =
    Real.sin (2 * Real.pi * (1024 : ℕ) * t / (2 ^ 17 : ℕ)) := by
  rw [C190_mean _ _ _ _ (by norm_num)]
  exact C190_band_counterexample.2 t

end Metcalcpy.Props
