/-
C273 Wind scores do not depend on the orientation of the coordinate axes.
-/
import Verif.Props.C259_WindDirection
import Verif.Props.C104_VectorCorrValue

namespace Metcalcpy.Props
open Metcalcpy Spec

/-- A pair of wind vectors in axes turned by the angle with cosine `k` and sine `s`; speeds stay as they are. -/
def turned (k s : ℚ) (p : WindPair) : WindPair :=
  { uf := k * p.uf - s * p.vf, vf := s * p.uf + k * p.vf, uo := k * p.uo - s * p.vo, vo := s * p.uo + k * p.vo, fs := p.fs, os := p.os }

section
variable (k s : ℚ) (P : List WindPair)

theorem avg_turned (g : WindPair → ℚ) : avg g (P.map (turned k s)) = avg (fun p => g (turned k s p)) P := by
  unfold avg
  rw [List.map_map, List.length_map]
  rfl

/-- The columns of components turn like the vectors. -/
theorem components_turned (u v : String)
    (h : (u, v) ∈ [("ufbar", "vfbar"), ("uobar", "vobar"), ("ufabar", "vfabar"), ("uoabar", "voabar")]) :
    avg (windSum u) (P.map (turned k s)) = k * avg (windSum u) P - s * avg (windSum v) P ∧
    avg (windSum v) (P.map (turned k s)) = s * avg (windSum u) P + k * avg (windSum v) P := by
  rw [avg_turned, avg_turned]
  rw [← avg_smul, ← avg_smul, ← avg_smul, ← avg_smul, ← avg_sub, ← avg_add]
  simp only [List.mem_cons, Prod.mk.injEq, List.not_mem_nil, or_false] at h
  rcases h with ⟨rfl, rfl⟩ | ⟨rfl, rfl⟩ | ⟨rfl, rfl⟩ | ⟨rfl, rfl⟩ <;> exact ⟨rfl, rfl⟩

/-- Products and speeds do not change. -/
theorem products_turned (h1 : k ^ 2 + s ^ 2 = 1) (c : String) (hc : c ∈ ["uvfobar", "uvffbar", "uvoobar", "f_speed_bar", "o_speed_bar",
    "uvfoabar", "uvffabar", "uvooabar", "fa_speed_bar", "oa_speed_bar"]) :
    avg (windSum c) (P.map (turned k s)) = avg (windSum c) P := by
  rw [avg_turned]
  refine avg_congr P (fun p _ => ?_)
  simp only [List.mem_cons, List.not_mem_nil, or_false] at hc
  rcases hc with rfl | rfl | rfl | rfl | rfl | rfl | rfl | rfl | rfl | rfl <;> simp only [windSum, turned] <;>
    first | rfl | linear_combination (p.uf * p.uo + p.vf * p.vo) * h1 | linear_combination (p.uf * p.uf + p.vf * p.vf) * h1 | linear_combination (p.uo * p.uo + p.vo * p.vo) * h1

end

theorem flatten_turned (k s : ℚ) (bs : List (List WindPair)) : (bs.map (List.map (turned k s))).flatten = bs.flatten.map (turned k s) := by
  rw [List.map_flatten]

theorem calcSpeed_turned (k s x y : ℚ) (h1 : k ^ 2 + s ^ 2 = 1) :
    calcSpeed ((k * x - s * y : ℚ) : ℝ) ((s * x + k * y : ℚ) : ℝ) = calcSpeed (x : ℝ) (y : ℝ) := by
  unfold calcSpeed
  congr 1
  have : ((k * x - s * y) * (k * x - s * y) + (s * x + k * y) * (s * x + k * y) : ℚ) = x * x + y * y := by
    linear_combination (x * x + y * y) * h1
  exact_mod_cast this

theorem vlSpeed_turned {k s : ℚ} (h1 : k ^ 2 + s ^ 2 = 1) {u v : String} {p p' : Table} {g : Bool} {x y : ℚ} (hx : colMean u p g = some x)
    (hy : colMean v p g = some y) (hx' : colMean u p' g = some (k * x - s * y)) (hy' : colMean v p' g = some (s * x + k * y)) :
    vlSpeed u v p' g = vlSpeed u v p g := by
  simp only [vlSpeed, hx, hy, hx', hy', bind, Option.bind, calcSpeed_turned k s x y h1]

/-- The same statistic of the lines before and after turning: the prepared tables and their columns. -/
theorem turned_prepared {cols : List String} (k s : ℚ) (h1 : k ^ 2 + s ^ 2 = 1) {t t' : Table} {bs : List (List WindPair)}
    (D : BatchData windSum cols t bs) (D' : BatchData windSum cols t' (bs.map (List.map (turned k s)))) (stat : String)
    (fields : List String) (hf : fieldsOf stat = some fields) (hnd : fields.Nodup) (hnt : "total" ∉ fields) (hsub : ∀ c ∈ fields, c ∈ cols) :
    ∃ p p', prepareFields t (fieldsOf stat) = .ok p ∧ prepareFields t' (fieldsOf stat) = .ok p' ∧
      sumColumn p' "total" = sumColumn p "total" ∧
      (∀ c ∈ fields, c ∈ ["uvfobar", "uvffbar", "uvoobar", "f_speed_bar", "o_speed_bar", "uvfoabar", "uvffabar", "uvooabar",
        "fa_speed_bar", "oa_speed_bar"] → ∀ g, colMean c p' g = colMean c p g ∧ sumColumn p' c = sumColumn p c) ∧
      ∀ u v, u ∈ fields → v ∈ fields → (u, v) ∈ [("ufbar", "vfbar"), ("uobar", "vobar"), ("ufabar", "vfabar"), ("uoabar", "voabar")] →
        ∀ g, ∃ x y, colMean u p g = some x ∧ colMean v p g = some y ∧ colMean u p' g = some (k * x - s * y) ∧
          colMean v p' g = some (s * x + k * y) := by
  obtain ⟨p, a1, a2, a3, a4, a5⟩ := batch_prepared D stat fields hf hnd hnt hsub
  obtain ⟨p', b1, b2, b3, b4, b5⟩ := batch_prepared D' stat fields hf hnd hnt hsub
  rw [flatten_turned] at b2 b3 b4 b5
  have toSum : ∀ (Q : List WindPair) (c : String), 0 < (Q.length : ℚ) → (Q.map (windSum c)).sum = (Q.length : ℚ) * avg (windSum c) Q := by
    intro Q c hQ; unfold avg; rw [mul_div_cancel₀ _ hQ.ne']
  have hl : ((bs.flatten.map (turned k s)).length : ℚ) = bs.flatten.length := by rw [List.length_map]
  have fls : ∀ c, colMean c p false = sumColumn p c ∧ colMean c p' false = sumColumn p' c := by
    intro c
    constructor <;> simp only [colMean, getTotalValues, bind, Option.bind] <;> simp only [Bool.false_eq_true, if_false] <;> split <;>
      simp_all [pyDiv]
  refine ⟨p, p', a1, b1, by rw [a2, b2, hl], fun c hc hp => ?_, fun u v hu hv huv => ?_⟩
  · have hs : sumColumn p' c = sumColumn p c := by
      rw [a3 c hc, b3 c hc, toSum _ _ a5, toSum _ _ b5, hl, products_turned k s _ h1 c hp]
    intro g
    refine ⟨?_, hs⟩
    cases g with
    | true => rw [a4 c hc, b4 c hc, products_turned k s _ h1 c hp]
    | false => rw [(fls c).1, (fls c).2, hs]
  · obtain ⟨e1, e2⟩ := components_turned k s bs.flatten u v huv
    intro g
    cases g with
    | true => exact ⟨_, _, a4 u hu, a4 v hv, by rw [b4 u hu, e1], by rw [b4 v hv, e2]⟩
    | false =>
      refine ⟨_, _, by rw [(fls u).1, a3 u hu], by rw [(fls v).1, a3 v hv], ?_, ?_⟩
      · rw [(fls u).2, b3 u hu, toSum _ _ b5, hl, e1, toSum _ u a5, toSum _ v a5]; congr 1; ring
      · rw [(fls v).2, b3 v hv, toSum _ _ b5, hl, e2, toSum _ u a5, toSum _ v a5]; congr 1; ring

/-- C273: for every angle (cosine `k`, sine `s`), the speeds, speed errors, vector errors, variances and direction errors of a group of
VL1L2 lines are the same in turned axes. -/
theorem C273_vectors (k s : ℚ) (h1 : k ^ 2 + s ^ 2 = 1) (t t' : Table) (bs : List (List WindPair)) (D : Vl1l2Data t bs)
    (D' : Vl1l2Data t' (bs.map (List.map (turned k s)))) :
    (∀ e ∈ [("vl1l2_fvar", vlFvar), ("vl1l2_ovar", vlOvar), ("vl1l2_msve", vlMsve), ("vcnt_msve", vlMsve),
        ("vcnt_fbar", weightedAverage "f_speed_bar"), ("vcnt_obar", weightedAverage "o_speed_bar")],
      aggregated e.1 e.2 t' = aggregated e.1 e.2 t) ∧
    ∀ e ∈ [("vl1l2_bias", vlBias), ("vl1l2_rmsve", vlRmsve), ("vl1l2_speed_err", vlSpeedErr), ("vcnt_rmsve", vlRmsve),
        ("vcnt_fs_rms", vcntRms "uvffbar"), ("vcnt_os_rms", vcntRms "uvoobar"), ("vcnt_fstdev", vcntStdev "uvffbar" "f_speed_bar"),
        ("vcnt_ostdev", vcntStdev "uvoobar" "o_speed_bar"), ("vcnt_fbar_speed", vlFspd), ("vcnt_obar_speed", vlOspd),
        ("vcnt_vdiff_speed", vcntVdiffSpeed), ("vcnt_speed_err", vlSpeedErr), ("vcnt_speed_abserr", vcntSpeedAbserr),
        ("vcnt_dir_err", vcntDirErr), ("vcnt_dir_abser", vcntDirAbser)],
      aggregated e.1 e.2 t' = aggregated e.1 e.2 t := by
  have P := fun stat fields hf hnd hnt hsub => turned_prepared k s h1 D D' stat fields hf hnd hnt hsub
  have agg : ∀ {α : Type} {stat : String} {calculate : Table → Bool → α} {p p' : Table}, prepareFields t (fieldsOf stat) = .ok p →
      prepareFields t' (fieldsOf stat) = .ok p' → calculate p' true = calculate p true →
      aggregated stat calculate t' = aggregated stat calculate t := by
    intro α stat calculate p p' e e' h
    rw [aggregated_eq e, aggregated_eq e', h]
  have err : ∀ (stat : String), fieldsOf stat = some ["ufbar", "vfbar", "uobar", "vobar"] → aggregated stat vlSpeedErr t' = aggregated stat vlSpeedErr t := by
    intro stat hs
    obtain ⟨p, p', e, e', -, -, hc⟩ := P stat _ hs (by decide) (by decide) (by decide)
    refine agg e e' ?_
    obtain ⟨x, y, c1, c2, c3, c4⟩ := hc "ufbar" "vfbar" (by simp) (by simp) (by simp) true
    obtain ⟨z, w, d1, d2, d3, d4⟩ := hc "uobar" "vobar" (by simp) (by simp) (by simp) true
    simp only [vlSpeedErr, vlFspd, vlOspd, vlSpeed_turned h1 c1 c2 c3 c4, vlSpeed_turned h1 d1 d2 d3 d4]
  have msve : ∀ (stat : String), fieldsOf stat = some ["uvffbar", "uvfobar", "uvoobar"] →
      aggregated stat vlMsve t' = aggregated stat vlMsve t ∧ aggregated stat vlRmsve t' = aggregated stat vlRmsve t := by
    intro stat hs
    obtain ⟨p, p', e, e', -, hc, -⟩ := P stat _ hs (by decide) (by decide) (by decide)
    have : vlMsve p' true = vlMsve p true := by
      simp only [vlMsve, (hc "uvffbar" (by simp) (by simp) true).1, (hc "uvfobar" (by simp) (by simp) true).1, (hc "uvoobar" (by simp) (by simp) true).1]
    refine ⟨agg e e' this, agg e e' ?_⟩
    simp only [vlRmsve, this]
  have dir : aggregated "vcnt_dir_err" vcntDirErr t' = aggregated "vcnt_dir_err" vcntDirErr t := by
    obtain ⟨p, p', e, e', -, -, hc⟩ := P "vcnt_dir_err" ["ufbar", "vfbar", "uobar", "vobar"] rfl (by decide) (by decide) (by decide)
    refine agg e e' ?_
    obtain ⟨x, y, c1, c2, c3, c4⟩ := hc "ufbar" "vfbar" (by simp) (by simp) (by simp) true
    obtain ⟨z, w, d1, d2, d3, d4⟩ := hc "uobar" "vobar" (by simp) (by simp) (by simp) true
    obtain ⟨z', w', f1, f2, f3, f4⟩ := hc "uobar" "vobar" (by simp) (by simp) (by simp) false
    have h1r : (k : ℝ) ^ 2 + (s : ℝ) ^ 2 = 1 := by exact_mod_cast h1
    simp only [vcntDirErr, vlFspd, vlOspd, vlSpeed_turned h1 c1 c2 c3 c4, vlSpeed_turned h1 f1 f2 f3 f4]
    simp only [c1, c2, c3, c4, d1, d2, d3, d4, bind, Option.bind]
    cases vlSpeed "ufbar" "vfbar" p true with
    | none => rfl
    | some F =>
      cases vlSpeed "uobar" "vobar" p false with
      | none => rfl
      | some O =>
        simp only
        have ea : (((s * x + k * y : ℚ) : ℝ) / F) * (((k * z - s * w : ℚ) : ℝ) / O) - (((k * x - s * y : ℚ) : ℝ) / F) * (((s * z + k * w : ℚ) : ℝ) / O) =
            (y : ℝ) / F * ((z : ℝ) / O) - (x : ℝ) / F * ((w : ℝ) / O) := by
          push_cast
          linear_combination ((y : ℝ) / F * ((z : ℝ) / O) - (x : ℝ) / F * ((w : ℝ) / O)) * h1r
        have eb : (((k * x - s * y : ℚ) : ℝ) / F) * (((k * z - s * w : ℚ) : ℝ) / O) + (((s * x + k * y : ℚ) : ℝ) / F) * (((s * z + k * w : ℚ) : ℝ) / O) =
            (x : ℝ) / F * ((z : ℝ) / O) + (y : ℝ) / F * ((w : ℝ) / O) := by
          push_cast
          linear_combination ((x : ℝ) / F * ((z : ℝ) / O) + (y : ℝ) / F * ((w : ℝ) / O)) * h1r
        rw [ea, eb]
  constructor
  · simp only [List.mem_cons, List.not_mem_nil, or_false, forall_eq_or_imp, forall_eq]
    refine ⟨?_, ?_, (msve _ rfl).1, (msve _ rfl).1, ?_, ?_⟩
    · obtain ⟨p, p', e, e', -, hc, -⟩ := P "vl1l2_fvar" ["uvffbar", "f_speed_bar"] rfl (by decide) (by decide) (by decide)
      refine agg e e' ?_
      simp only [vlFvar, vlVar, (hc "uvffbar" (by simp) (by simp) true).1, (hc "f_speed_bar" (by simp) (by simp) true).1]
    · obtain ⟨p, p', e, e', -, hc, -⟩ := P "vl1l2_ovar" ["uvoobar", "o_speed_bar"] rfl (by decide) (by decide) (by decide)
      refine agg e e' ?_
      simp only [vlOvar, vlVar, (hc "uvoobar" (by simp) (by simp) true).1, (hc "o_speed_bar" (by simp) (by simp) true).1]
    · obtain ⟨p, p', e, e', -, hc, -⟩ := P "vcnt_fbar" ["f_speed_bar"] rfl (by decide) (by decide) (by decide)
      refine agg e e' ?_
      simp only [weightedAverage, (hc "f_speed_bar" (by simp) (by simp) true).1]
    · obtain ⟨p, p', e, e', -, hc, -⟩ := P "vcnt_obar" ["o_speed_bar"] rfl (by decide) (by decide) (by decide)
      refine agg e e' ?_
      simp only [weightedAverage, (hc "o_speed_bar" (by simp) (by simp) true).1]
  · simp only [List.mem_cons, List.not_mem_nil, or_false, forall_eq_or_imp, forall_eq]
    refine ⟨?_, (msve _ rfl).2, err _ rfl, (msve _ rfl).2, ?_, ?_, ?_, ?_, ?_, ?_, ?_, err _ rfl, ?_, dir, ?_⟩
    · obtain ⟨p, p', e, e', -, hc, -⟩ := P "vl1l2_bias" ["uvffbar", "uvoobar"] rfl (by decide) (by decide) (by decide)
      refine agg e e' ?_
      simp only [vlBias, (hc "uvffbar" (by simp) (by simp) true).1, (hc "uvoobar" (by simp) (by simp) true).1]
    · obtain ⟨p, p', e, e', -, hc, -⟩ := P "vcnt_fs_rms" ["uvffbar"] rfl (by decide) (by decide) (by decide)
      refine agg e e' ?_
      simp only [vcntRms, (hc "uvffbar" (by simp) (by simp) true).1]
    · obtain ⟨p, p', e, e', -, hc, -⟩ := P "vcnt_os_rms" ["uvoobar"] rfl (by decide) (by decide) (by decide)
      refine agg e e' ?_
      simp only [vcntRms, (hc "uvoobar" (by simp) (by simp) true).1]
    · obtain ⟨p, p', e, e', -, hc, -⟩ := P "vcnt_fstdev" ["uvffbar", "f_speed_bar"] rfl (by decide) (by decide) (by decide)
      refine agg e e' ?_
      simp only [vcntStdev, vlVar, (hc "uvffbar" (by simp) (by simp) true).1, (hc "f_speed_bar" (by simp) (by simp) true).1]
    · obtain ⟨p, p', e, e', -, hc, -⟩ := P "vcnt_ostdev" ["uvoobar", "o_speed_bar"] rfl (by decide) (by decide) (by decide)
      refine agg e e' ?_
      simp only [vcntStdev, vlVar, (hc "uvoobar" (by simp) (by simp) true).1, (hc "o_speed_bar" (by simp) (by simp) true).1]
    · obtain ⟨p, p', e, e', -, -, hc⟩ := P "vcnt_fbar_speed" ["ufbar", "vfbar"] rfl (by decide) (by decide) (by decide)
      refine agg e e' ?_
      obtain ⟨x, y, c1, c2, c3, c4⟩ := hc "ufbar" "vfbar" (by simp) (by simp) (by simp) true
      exact vlSpeed_turned h1 c1 c2 c3 c4
    · obtain ⟨p, p', e, e', -, -, hc⟩ := P "vcnt_obar_speed" ["uobar", "vobar"] rfl (by decide) (by decide) (by decide)
      refine agg e e' ?_
      obtain ⟨x, y, c1, c2, c3, c4⟩ := hc "uobar" "vobar" (by simp) (by simp) (by simp) true
      exact vlSpeed_turned h1 c1 c2 c3 c4
    · obtain ⟨p, p', e, e', -, -, hc⟩ := P "vcnt_vdiff_speed" ["ufbar", "uobar", "vfbar", "vobar"] rfl (by decide) (by decide) (by decide)
      refine agg e e' ?_
      obtain ⟨x, y, c1, c2, c3, c4⟩ := hc "ufbar" "vfbar" (by simp) (by simp) (by simp) true
      obtain ⟨z, w, d1, d2, d3, d4⟩ := hc "uobar" "vobar" (by simp) (by simp) (by simp) true
      simp only [vcntVdiffSpeed, c1, c2, c3, c4, d1, d2, d3, d4, bind, Option.bind]
      rw [show k * x - s * y - (k * z - s * w) = k * (x - z) - s * (y - w) by ring,
        show s * x + k * y - (s * z + k * w) = s * (x - z) + k * (y - w) by ring, calcSpeed_turned k s _ _ h1]
    · obtain ⟨p, p', e, e', -, -, hc⟩ := P "vcnt_speed_abserr" ["ufbar", "vfbar", "uobar", "vobar"] rfl (by decide) (by decide) (by decide)
      refine agg e e' ?_
      obtain ⟨x, y, c1, c2, c3, c4⟩ := hc "ufbar" "vfbar" (by simp) (by simp) (by simp) true
      obtain ⟨z, w, d1, d2, d3, d4⟩ := hc "uobar" "vobar" (by simp) (by simp) (by simp) true
      simp only [vcntSpeedAbserr, vlSpeedErr, vlFspd, vlOspd, vlSpeed_turned h1 c1 c2 c3 c4, vlSpeed_turned h1 d1 d2 d3 d4]
    · rw [(C260_abs_is_err t).1, (C260_abs_is_err t').1, dir]

/-- C273 for wind anomalies: the correlations of a group of VAL1L2 lines are the same in turned axes. -/
theorem C273_anomalies (k s : ℚ) (h1 : k ^ 2 + s ^ 2 = 1) (t t' : Table) (bs : List (List WindPair)) (D : Val1l2Data t bs)
    (D' : Val1l2Data t' (bs.map (List.map (turned k s)))) :
    ∀ e ∈ [("val1l2_anom_corr", valAnomCorr), ("vcnt_anom_corr", vcntAnomCorr), ("vcnt_anom_corr_uncntr", vcntAnomCorrUncntr)],
      aggregated e.1 e.2 t' = aggregated e.1 e.2 t := by
  have P := fun stat fields hf hnd hnt hsub => turned_prepared k s h1 D D' stat fields hf hnd hnt hsub
  simp only [List.mem_cons, List.not_mem_nil, or_false, forall_eq_or_imp, forall_eq]
  refine ⟨?_, ?_, ?_⟩
  · obtain ⟨p, p', e, e', -, hi, hc⟩ := P "val1l2_anom_corr" ["ufabar", "vfabar", "uoabar", "voabar", "uvfoabar", "uvffabar", "uvooabar"] rfl
      (by decide) (by decide) (by decide)
    rw [aggregated_eq e, aggregated_eq e']
    obtain ⟨x, y, c1, c2, c3, c4⟩ := hc "ufabar" "vfabar" (by simp) (by simp) (by simp) true
    obtain ⟨z, w, d1, d2, d3, d4⟩ := hc "uoabar" "voabar" (by simp) (by simp) (by simp) true
    simp only [valAnomCorr, c1, c2, c3, c4, d1, d2, d3, d4, (hi "uvfoabar" (by simp) (by simp) true).1,
      (hi "uvffabar" (by simp) (by simp) true).1, (hi "uvooabar" (by simp) (by simp) true).1]
    have hw : ∀ a b c : ℚ, calcWindCorr (k * x - s * y) (s * x + k * y) (k * z - s * w) (s * z + k * w) a b c = calcWindCorr x y z w a b c := by
      intro a b c
      unfold calcWindCorr
      rw [show b - (k * x - s * y) * (k * x - s * y) - (s * x + k * y) * (s * x + k * y) = b - x * x - y * y by
          linear_combination -(x * x + y * y) * h1,
        show c - (k * z - s * w) * (k * z - s * w) - (s * z + k * w) * (s * z + k * w) = c - z * z - w * w by
          linear_combination -(z * z + w * w) * h1,
        show a - (k * x - s * y) * (k * z - s * w) - (s * x + k * y) * (s * z + k * w) = a - x * z - y * w by
          linear_combination -(x * z + y * w) * h1]
    simp only [bind, Option.bind, hw]
  · obtain ⟨p, p', e, e', ht, hi, -⟩ := P "vcnt_anom_corr" ["uvffabar", "uvfoabar", "uvooabar", "fa_speed_bar", "oa_speed_bar"] rfl
      (by decide) (by decide) (by decide)
    rw [aggregated_eq e, aggregated_eq e']
    simp only [vcntAnomCorr, getTotalValues, ht, (hi "uvfoabar" (by simp) (by simp) true).2, (hi "uvffabar" (by simp) (by simp) true).2,
      (hi "uvooabar" (by simp) (by simp) true).2, (hi "fa_speed_bar" (by simp) (by simp) true).2, (hi "oa_speed_bar" (by simp) (by simp) true).2]
  · obtain ⟨p, p', e, e', -, hi, -⟩ := P "vcnt_anom_corr_uncntr" ["uvffabar", "uvfoabar", "uvooabar"] rfl (by decide) (by decide) (by decide)
    rw [aggregated_eq e, aggregated_eq e']
    simp only [vcntAnomCorrUncntr, (hi "uvfoabar" (by simp) (by simp) true).2, (hi "uvffabar" (by simp) (by simp) true).2,
      (hi "uvooabar" (by simp) (by simp) true).2]

/-- C273 for VL1L2_FSPD and VL1L2_OSPD, which are computed from unweighted sums (C68): they too are the same in turned axes. -/
theorem C273_unweighted_speeds (k s : ℚ) (h1 : k ^ 2 + s ^ 2 = 1) (t t' : Table) (bs : List (List WindPair)) (D : Vl1l2Data t bs)
    (D' : Vl1l2Data t' (bs.map (List.map (turned k s)))) :
    aggregated "vl1l2_fspd" vlFspd t' = aggregated "vl1l2_fspd" vlFspd t ∧ aggregated "vl1l2_ospd" vlOspd t' = aggregated "vl1l2_ospd" vlOspd t := by
  have sums : ∀ u v, u ∈ vl1l2Columns → v ∈ vl1l2Columns → (u, v) ∈ [("ufbar", "vfbar"), ("uobar", "vobar"), ("ufabar", "vfabar"), ("uoabar", "voabar")] →
      vlSpeed u v t' true = vlSpeed u v t true := by
    intro u v hu hv huv
    have tot : ∀ {T : Table} {B : List (List WindPair)}, Vl1l2Data T B → sumColumn T "total" = some (B.flatten.length : ℚ) ∧
        ∀ c ∈ vl1l2Columns, sumColumn T c = some (B.map (avg (windSum c))).sum := by
      intro T B E
      refine ⟨?_, fun c hc => sumColumn_of_complete E.rows_ne (E.field c hc)⟩
      rw [sumColumn_of_complete E.rows_ne E.total, List.length_flatten, Nat.cast_list_sum, List.map_map]
      rfl
    obtain ⟨a, b⟩ := tot D
    obtain ⟨a', b'⟩ := tot D'
    have hl : ((bs.map (List.map (turned k s))).flatten.length : ℚ) = bs.flatten.length := by rw [flatten_turned, List.length_map]
    rw [hl] at a'
    have r1 : ((bs.map (List.map (turned k s))).map (avg (windSum u))).sum =
        k * (bs.map (avg (windSum u))).sum - s * (bs.map (avg (windSum v))).sum := by
      rw [List.map_map, ← sum_map_mul_left', ← sum_map_mul_left', ← sum_map_sub']
      exact congrArg List.sum (List.map_congr_left fun b _ => (components_turned k s b u v huv).1)
    have r2 : ((bs.map (List.map (turned k s))).map (avg (windSum v))).sum =
        s * (bs.map (avg (windSum u))).sum + k * (bs.map (avg (windSum v))).sum := by
      rw [List.map_map, ← sum_map_mul_left', ← sum_map_mul_left', ← sum_map_add']
      exact congrArg List.sum (List.map_congr_left fun b _ => (components_turned k s b u v huv).2)
    generalize (bs.flatten.length : ℚ) = N at a a'
    by_cases hN : N = 0
    · subst hN
      simp [vlSpeed, colMean, getTotalValues, a, a', b u hu, b' u hu, pyDiv]
    · refine vlSpeed_turned h1 (x := (bs.map (avg (windSum u))).sum / N) (y := (bs.map (avg (windSum v))).sum / N) ?_ ?_ ?_ ?_
      · simp [colMean, getTotalValues, a, b u hu, pyDiv, hN]
      · simp [colMean, getTotalValues, a, b v hv, pyDiv, hN]
      · simp only [colMean, getTotalValues, a', b' u hu, pyDiv, hN, bind, Option.bind, if_true, if_false, r1]
        congr 1; ring
      · simp only [colMean, getTotalValues, a', b' v hv, pyDiv, hN, bind, Option.bind, if_true, if_false, r2]
        congr 1; ring
  have hf : prepareFields t (fieldsOf "vl1l2_fspd") = .ok t ∧ prepareFields t' (fieldsOf "vl1l2_fspd") = .ok t' := ⟨rfl, rfl⟩
  have ho : prepareFields t (fieldsOf "vl1l2_ospd") = .ok t ∧ prepareFields t' (fieldsOf "vl1l2_ospd") = .ok t' := ⟨rfl, rfl⟩
  rw [aggregated_eq hf.1, aggregated_eq hf.2, aggregated_eq ho.1, aggregated_eq ho.2]
  exact ⟨congrArg _ (sums "ufbar" "vfbar" (by decide) (by decide) (by simp)), congrArg _ (sums "uobar" "vobar" (by decide) (by decide) (by simp))⟩

/-- The winds of C68 in axes turned by the angle with cosine 3/5 and sine 4/5. -/
def windTurned : Table :=
  { cols := ["total", "ufbar", "vfbar", "uobar", "vobar", "uvfobar", "uvffbar", "uvoobar", "f_speed_bar", "o_speed_bar"]
    rows := [[some 1, some (-7/5), some (24/5), some (-7/5), some (24/5), some 25, some 25, some 25, some 5, some 5],
             [some 2, some (-7/5), some (24/5), some 0, some 0, some 0, some 25, some 0, some 5, some 0]] }

theorem windTurned_data : Vl1l2Data windTurned (windBatches.map (List.map (turned (3 / 5) (4 / 5)))) where
  rows_ne := by decide
  batch_ne := by decide
  total := ⟨0, by decide, by decide, by decide +kernel⟩
  field := by
    intro c hc
    simp only [vl1l2Columns, List.mem_cons, List.not_mem_nil, or_false] at hc
    rcases hc with rfl | rfl | rfl | rfl | rfl | rfl | rfl | rfl | rfl
    · exact ⟨1, by decide, by decide, by decide +kernel⟩
    · exact ⟨2, by decide, by decide, by decide +kernel⟩
    · exact ⟨3, by decide, by decide, by decide +kernel⟩
    · exact ⟨4, by decide, by decide, by decide +kernel⟩
    · exact ⟨5, by decide, by decide, by decide +kernel⟩
    · exact ⟨6, by decide, by decide, by decide +kernel⟩
    · exact ⟨7, by decide, by decide, by decide +kernel⟩
    · exact ⟨8, by decide, by decide, by decide +kernel⟩
    · exact ⟨9, by decide, by decide, by decide +kernel⟩

/-- The hypotheses of C273 hold for these winds. -/
example : aggregated "vcnt_vdiff_speed" vcntVdiffSpeed windTurned = aggregated "vcnt_vdiff_speed" vcntVdiffSpeed windTable :=
  (C273_vectors _ _ (by norm_num) _ _ _ windTable_data windTurned_data).2 ("vcnt_vdiff_speed", vcntVdiffSpeed) (by simp)
example : aggregated "vl1l2_fspd" vlFspd windTurned = aggregated "vl1l2_fspd" vlFspd windTable :=
  (C273_unweighted_speeds _ _ (by norm_num) _ _ _ windTable_data windTurned_data).1

/-- The anomalies of C104 in the same turned axes. -/
def anomTurned : Table :=
  { cols := ["total", "ufabar", "vfabar", "uoabar", "voabar", "uvfoabar", "uvffabar", "uvooabar", "fa_speed_bar", "oa_speed_bar"]
    rows := [[some 1, some (-7/5), some (24/5), some 0, some 5, some 24, some 25, some 25, some 5, some 5],
             [some 1, some (-4/5), some (3/5), some (-4/5), some (3/5), some 1, some 1, some 1, some 1, some 1]] }

theorem anomTurned_data : Val1l2Data anomTurned ((anomPairs.map (fun p => [p])).map (List.map (turned (3 / 5) (4 / 5)))) := by
  refine ⟨by decide, by decide, ⟨0, by decide, by decide, by decide +kernel⟩, ?_⟩
  intro c hc
  simp only [val1l2Columns, List.mem_cons, List.not_mem_nil, or_false] at hc
  rcases hc with rfl | rfl | rfl | rfl | rfl | rfl | rfl | rfl | rfl
  · exact ⟨1, by decide, by decide, by decide +kernel⟩
  · exact ⟨2, by decide, by decide, by decide +kernel⟩
  · exact ⟨3, by decide, by decide, by decide +kernel⟩
  · exact ⟨4, by decide, by decide, by decide +kernel⟩
  · exact ⟨5, by decide, by decide, by decide +kernel⟩
  · exact ⟨6, by decide, by decide, by decide +kernel⟩
  · exact ⟨7, by decide, by decide, by decide +kernel⟩
  · exact ⟨8, by decide, by decide, by decide +kernel⟩
  · exact ⟨9, by decide, by decide, by decide +kernel⟩

example : aggregated "val1l2_anom_corr" valAnomCorr anomTurned = aggregated "val1l2_anom_corr" valAnomCorr anomTable :=
  C273_anomalies _ _ (by norm_num) _ _ _ anomTable_data anomTurned_data ("val1l2_anom_corr", valAnomCorr) (by simp)

end Metcalcpy.Props
