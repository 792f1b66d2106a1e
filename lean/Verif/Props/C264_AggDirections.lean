/-
C264 Wind directions in an aggregation table are determined by the mean winds of the common cases, pooled.
C258 The limits of bootstrapped wind directions.
-/
import Verif.Model.AggDirections
import Verif.Props.C258_RootLimits
import Verif.Props.C259_WindDirection

namespace Metcalcpy.Props
open Metcalcpy Spec

/-! ### Specification -/

/-- The angle of the wind `(u, v)` blowing from a direction: zero for a wind from the north, positive for winds with a
component from the east, in radians between -π and π. -/
noncomputable def windAngle (u v : ℝ) : ℝ := Complex.arg ⟨-v, -u⟩

/-- `x` shows the direction of the wind `(u, v)`: missing if both components are below 0.00001, and otherwise the rounded
angle in radians, with 360 added if it is negative. -/
structure ShowsDirection (u v : ℚ) (x : PyNum) : Prop where
  calm : |u| < 1 / 10 ^ 5 ∧ |v| < 1 / 10 ^ 5 → x = .none
  wind : ¬ (|u| < 1 / 10 ^ 5 ∧ |v| < 1 / 10 ^ 5) →
    RoundsTo (if 0 ≤ windAngle u v then windAngle u v else windAngle u v + 360) x

/-- `x` is the direction called `s` of the pool of wind vectors. -/
structure DirectionScore (s : String) (pool : List WindPair) (x : PyNum) : Prop where
  fdir : s = "vcnt_fdir" → ShowsDirection (avg WindPair.uf pool) (avg WindPair.vf pool) x
  odir : s = "vcnt_odir" → ShowsDirection (avg WindPair.uo pool) (avg WindPair.vo pool) x
  vdiff_dir : s = "vcnt_vdiff_dir" →
    ShowsDirection (avg WindPair.uf pool - avg WindPair.uo pool) (avg WindPair.vf pool - avg WindPair.vo pool) x
  dir_err : s = "vcnt_dir_err" ∨ s = "vcnt_dir_abser" → ∀ uf vf uo vo : ℝ,
    uf = (avg WindPair.uf pool : ℝ) → vf = (avg WindPair.vf pool : ℝ) → uo = (avg WindPair.uo pool : ℝ) →
    vo = (avg WindPair.vo pool : ℝ) → uf ^ 2 + vf ^ 2 ≠ 0 → uo ^ 2 + vo ^ 2 ≠ 0 → x ≠ .none →
    RoundsTo (if 0 ≤ vf * uo - uf * vo then angleBetween uf vf uo vo else 360 - angleBetween uf vf uo vo) x
  range : ∀ q, x = .num q → 0 ≤ q ∧ q ≤ 360

/-! ### Values -/

theorem directionPrepared_of {f : Frame} {s : String} {data : List (List Val)} {calculate : Table → Bool → Option ℝ}
    {x : Option ℝ} (hl : directionFunctions.lookup s = some (fun t => calculate t true))
    (ha : aggregated s calculate (numericTable f.cols data) = .ok x) :
    directionPrepared f s data = .ok (realNum x) := by
  obtain ⟨t, h1, h2⟩ := aggregated_inv ha
  unfold directionPrepared
  simp only [bind, Except.bind, h1, hl, h2]

theorem directionStat_inv {f : Frame} {s : String} {rows : List (List Val)} {v : PyNum}
    (h : directionStat f s rows = .ok v) : ∃ data, data.Perm rows ∧ directionPrepared f s data = .ok v := by
  unfold directionStat at h
  cases hs : sortData f rows with
  | error e => rw [hs] at h; cases h
  | ok data =>
    rw [hs] at h
    exact ⟨data, (sortData_spec hs).1, h⟩

theorem directionStat_sorted {f : Frame} {s : String} {rows data : List (List Val)} (hs : sortData f rows = .ok data) :
    directionStat f s rows = directionPrepared f s data := by
  unfold directionStat
  rw [hs]; rfl

theorem calcDirection_shows (u v : ℚ) :
    ShowsDirection u v (realNum ((calcDirection (-(u : ℝ)) (-(v : ℝ))).map fun d => roundHalfUp d PRECISION)) := by
  have key : (|u| < 1 / 10 ^ 5 ∧ |v| < 1 / 10 ^ 5) ↔ (|(-(u : ℝ))| < 1 / 10 ^ 5 ∧ |(-(v : ℝ))| < 1 / 10 ^ 5) := by
    rw [abs_neg, abs_neg]
    have h : ∀ q : ℚ, |q| < 1 / 10 ^ 5 ↔ |(q : ℝ)| < 1 / 10 ^ 5 := by
      intro q
      rw [← Rat.cast_abs, ← Rat.cast_lt (K := ℝ)]
      norm_num
    rw [h, h]
  constructor
  · intro h
    unfold calcDirection
    rw [if_pos (key.mp h)]
    rfl
  · intro h
    rw [C70_direction_actual _ _ (fun h' => h (key.mpr h'))]
    exact realNum_rounds _

theorem dir_aggregated {t : Table} {bs : List (List WindPair)} (D : Vl1l2Data t bs) {s a b : String}
    (hs : fieldsOf s = some [a, b]) (hab : a ≠ b) (ha : a ∈ ["ufbar", "vfbar", "uobar", "vobar"])
    (hb : b ∈ ["ufbar", "vfbar", "uobar", "vobar"]) :
    aggregated s (vcntDir a b) t = .ok ((calcDirection (-(avg (windSum a) bs.flatten : ℝ))
      (-(avg (windSum b) bs.flatten : ℝ))).map fun d => roundHalfUp d PRECISION) := by
  have hcol : ∀ c ∈ ["ufbar", "vfbar", "uobar", "vobar"], c ≠ "total" ∧ c ∈ vl1l2Columns := by decide
  obtain ⟨t', h1, -, -, h3, -⟩ := batch_prepared D s [a, b] hs (by simp [hab])
    (by simp [(hcol a ha).1.symm, (hcol b hb).1.symm]) (by
      intro c hc
      simp only [List.mem_cons, List.not_mem_nil, or_false] at hc
      rcases hc with rfl | rfl
      · exact (hcol _ ha).2
      · exact (hcol _ hb).2)
  rw [aggregated_eq h1]
  simp only [vcntDir, h3 a (by simp), h3 b (by simp), bind, Option.bind]
  generalize calcDirection _ _ = d
  cases d <;> rfl

theorem vdiff_aggregated {t : Table} {bs : List (List WindPair)} (D : Vl1l2Data t bs) :
    aggregated "vcnt_vdiff_dir" vcntVdiffDir t = .ok ((calcDirection
      (-((avg WindPair.uf bs.flatten - avg WindPair.uo bs.flatten : ℚ) : ℝ))
      (-((avg WindPair.vf bs.flatten - avg WindPair.vo bs.flatten : ℚ) : ℝ))).map fun d => roundHalfUp d PRECISION) := by
  obtain ⟨t', h1, -, -, h3, -⟩ := batch_prepared D "vcnt_vdiff_dir" ["ufbar", "uobar", "vfbar", "vobar"] rfl
    (by decide) (by decide) (by decide)
  rw [aggregated_eq h1]
  simp only [vcntVdiffDir, h3 "ufbar" (by simp), h3 "uobar" (by simp), h3 "vfbar" (by simp), h3 "vobar" (by simp), bind,
    Option.bind]
  have e : calcDirection (-((avg WindPair.uf bs.flatten - avg WindPair.uo bs.flatten : ℚ) : ℝ))
      (-((avg WindPair.vf bs.flatten - avg WindPair.vo bs.flatten : ℚ) : ℝ)) =
    calcDirection (-((avg (windSum "ufbar") bs.flatten - avg (windSum "uobar") bs.flatten : ℚ) : ℝ))
      (-((avg (windSum "vfbar") bs.flatten - avg (windSum "vobar") bs.flatten : ℚ) : ℝ)) := rfl
  rw [e]
  generalize calcDirection _ _ = d
  cases d <;> rfl

theorem calcDirection_range {u v d : ℝ} (h : calcDirection u v = some d) :
    0 ≤ roundHalfUp d PRECISION ∧ roundHalfUp d PRECISION ≤ 360 := by
  obtain ⟨h1, h2⟩ := C70_direction_range_partial u v d h
  refine ⟨round7_nonneg h1, le_trans (roundHalfUp_mono h2.le _) (le_of_eq ?_)⟩
  have : ⌊(360 : ℝ) * 10 ^ (7 : ℤ) + 1 / 2⌋ = 3600000000 := by
    rw [Int.floor_eq_iff]
    norm_num
  unfold roundHalfUp PRECISION
  rw [this]
  norm_num

theorem realNum_range {x : Option ℝ} (h : ∀ d, x = some d → ∃ e, d = roundHalfUp e PRECISION ∧ 0 ≤ d ∧ d ≤ 360) {q : ℚ}
    (hq : realNum x = .num q) : 0 ≤ q ∧ q ≤ 360 := by
  cases x with
  | none => cases hq
  | some d =>
    obtain ⟨e, rfl, h1, h2⟩ := h d rfl
    obtain ⟨q', e', hq'⟩ := realNum_rounds e
    rw [hq] at e'
    obtain rfl : q = q' := by simpa using e'
    have h3 : (q : ℝ) = roundHalfUp e PRECISION := hq'
    rw [← h3] at h1 h2
    exact ⟨by exact_mod_cast h1, by exact_mod_cast h2⟩

theorem mapped_range {u v : ℝ} {d : ℝ} (h : (calcDirection u v).map (fun d => roundHalfUp d PRECISION) = some d) :
    ∃ e, d = roundHalfUp e PRECISION ∧ 0 ≤ d ∧ d ≤ 360 := by
  cases hc : calcDirection u v with
  | none => rw [hc] at h; cases h
  | some e =>
    rw [hc] at h
    obtain rfl : roundHalfUp e PRECISION = d := by simpa using h
    exact ⟨e, rfl, calcDirection_range hc⟩

theorem dirErr_range {t : Table} {b : Bool} {d : ℝ} (h : vcntDirErr t b = some d) :
    ∃ e, d = roundHalfUp e PRECISION ∧ 0 ≤ d ∧ d ≤ 360 := by
  unfold vcntDirErr at h
  simp only [bind, Option.bind_eq_some_iff] at h
  obtain ⟨_, _, _, _, _, _, _, _, _, _, _, _, h⟩ := h
  split at h
  · cases h
  · obtain ⟨e, he, h⟩ := Option.bind_eq_some_iff.mp h
    obtain rfl := Option.some.inj h
    exact ⟨e, rfl, calcDirection_range he⟩

/-- The value of a set of VCNT lines. -/
theorem direction_value {f : Frame} {pairs : List Val → List WindPair} (L : WindLines vl1l2Columns f pairs)
    {rows data : List (List Val)} (hs : data.Perm rows) (hne : rows ≠ []) (hsub : ∀ r ∈ rows, r ∈ f.rows)
    {s : String} {v : PyNum} (h : directionPrepared f s data = .ok v) : DirectionScore s (rows.flatMap pairs) v := by
  have D := wind_table L (perm_ne hs hne) (fun r hr => hsub r (hs.mem_iff.mp hr))
  have hpool : (data.map pairs).flatten.Perm (rows.flatMap pairs) := by
    rw [← List.flatMap_def]
    exact hs.flatMap_right pairs
  have e1 : avg WindPair.uf (data.map pairs).flatten = avg WindPair.uf (rows.flatMap pairs) := perm_avg _ hpool
  have e2 : avg WindPair.vf (data.map pairs).flatten = avg WindPair.vf (rows.flatMap pairs) := perm_avg _ hpool
  have e3 : avg WindPair.uo (data.map pairs).flatten = avg WindPair.uo (rows.flatMap pairs) := perm_avg _ hpool
  have e4 : avg WindPair.vo (data.map pairs).flatten = avg WindPair.vo (rows.flatMap pairs) := perm_avg _ hpool
  have a1 : aggregated "vcnt_fdir" (vcntDir "ufbar" "vfbar") (numericTable f.cols data) =
      .ok ((calcDirection (-(avg WindPair.uf (data.map pairs).flatten : ℝ))
        (-(avg WindPair.vf (data.map pairs).flatten : ℝ))).map fun d => roundHalfUp d PRECISION) :=
    dir_aggregated D rfl (by decide) (by decide) (by decide)
  have a2 : aggregated "vcnt_odir" (vcntDir "uobar" "vobar") (numericTable f.cols data) =
      .ok ((calcDirection (-(avg WindPair.uo (data.map pairs).flatten : ℝ))
        (-(avg WindPair.vo (data.map pairs).flatten : ℝ))).map fun d => roundHalfUp d PRECISION) :=
    dir_aggregated D rfl (by decide) (by decide) (by decide)
  have a3 := vdiff_aggregated D
  rw [e1, e2] at a1
  rw [e3, e4] at a2
  rw [e1, e2, e3, e4] at a3
  have value : ∀ {stat : String} {calculate : Table → Bool → Option ℝ} {x : Option ℝ}, s = stat →
      directionFunctions.lookup stat = some (fun t => calculate t true) →
      aggregated stat calculate (numericTable f.cols data) = .ok x → v = realNum x := by
    rintro stat calculate x rfl hl ha
    rw [directionPrepared_of hl ha] at h
    exact (Except.ok.inj h).symm
  obtain ⟨x, hx⟩ : ∃ x, aggregated "vcnt_dir_err" vcntDirErr (numericTable f.cols data) = .ok x := by
    obtain ⟨t', h1, -⟩ := batch_prepared D "vcnt_dir_err" ["ufbar", "vfbar", "uobar", "vobar"] rfl
      (by decide) (by decide) (by decide)
    exact ⟨_, aggregated_eq h1⟩
  have hx' := (C260_abs_is_err (numericTable f.cols data)).1.trans hx
  refine ⟨?_, ?_, ?_, ?_, ?_⟩
  · intro e
    rw [value e rfl a1]
    exact calcDirection_shows _ _
  · intro e
    rw [value e rfl a2]
    exact calcDirection_shows _ _
  · intro e
    rw [value e rfl a3]
    exact calcDirection_shows _ _
  · intro e uf vf uo vo i1 i2 i3 i4 hf ho hv
    have hv' : v = realNum x := by
      rcases e with e | e
      · exact value e rfl hx
      · exact value e rfl hx'
    cases x with
    | none => exact absurd hv' hv
    | some d =>
      have := C71_dir_err_partial _ _ D d hx
      rw [e1, e2, e3, e4, ← i1, ← i2, ← i3, ← i4, reported_angle _ _ _ _ hf ho] at this
      rw [hv', this]
      exact realNum_rounds _
  · intro q hq
    unfold directionPrepared at h
    simp only [bind, Except.bind] at h
    split at h
    · cases h
    · next t ht =>
      split at h
      · cases h
      · next c hc =>
        obtain rfl : realNum (c t) = v := Except.ok.inj h
        by_cases g1 : s = "vcnt_fdir"
        · rw [value g1 rfl a1] at hq
          exact realNum_range (fun d hd => mapped_range hd) hq
        by_cases g2 : s = "vcnt_odir"
        · rw [value g2 rfl a2] at hq
          exact realNum_range (fun d hd => mapped_range hd) hq
        by_cases g3 : s = "vcnt_vdiff_dir"
        · rw [value g3 rfl a3] at hq
          exact realNum_range (fun d hd => mapped_range hd) hq
        have herr : ∀ d, x = some d → ∃ e, d = roundHalfUp e PRECISION ∧ 0 ≤ d ∧ d ≤ 360 := by
          rintro d rfl
          obtain ⟨t', -, k⟩ := aggregated_inv hx
          exact dirErr_range k
        by_cases g4 : s = "vcnt_dir_err"
        · rw [value g4 rfl hx] at hq
          exact realNum_range herr hq
        by_cases g5 : s = "vcnt_dir_abser"
        · rw [value g5 rfl hx'] at hq
          exact realNum_range herr hq
        exfalso
        simp only [directionFunctions, List.lookup_cons, beq_iff_eq] at hc
        have q1 : (s == "vcnt_fdir") = false := by simpa using g1
        have q2 : (s == "vcnt_odir") = false := by simpa using g2
        have q3 : (s == "vcnt_vdiff_dir") = false := by simpa using g3
        have q4 : (s == "vcnt_dir_err") = false := by simpa using g4
        have q5 : (s == "vcnt_dir_abser") = false := by simpa using g5
        simp [q1, q2, q3, q4, q5] at hc

theorem direction_exists {f : Frame} {pairs : List Val → List WindPair} (L : WindLines vl1l2Columns f pairs)
    {data : List (List Val)} (hne : data ≠ []) (hsub : ∀ r ∈ data, r ∈ f.rows) {st : String}
    (hst : st ∈ ["vcnt_fdir", "vcnt_odir", "vcnt_vdiff_dir", "vcnt_dir_err", "vcnt_dir_abser"]) :
    ∃ v, directionPrepared f st data = .ok v := by
  have D := wind_table L hne hsub
  obtain ⟨t', h1, -⟩ := batch_prepared D "vcnt_dir_err" ["ufbar", "vfbar", "uobar", "vobar"] rfl
    (by decide) (by decide) (by decide)
  have hx : aggregated "vcnt_dir_err" vcntDirErr (numericTable f.cols data) = .ok (vcntDirErr t' true) := aggregated_eq h1
  simp only [List.mem_cons, List.not_mem_nil, or_false] at hst
  rcases hst with rfl | rfl | rfl | rfl | rfl
  · exact ⟨_, directionPrepared_of (calculate := vcntDir "ufbar" "vfbar") rfl
      (dir_aggregated D rfl (by decide) (by decide) (by decide))⟩
  · exact ⟨_, directionPrepared_of (calculate := vcntDir "uobar" "vobar") rfl
      (dir_aggregated D rfl (by decide) (by decide) (by decide))⟩
  · exact ⟨_, directionPrepared_of (calculate := vcntVdiffDir) rfl (vdiff_aggregated D)⟩
  · exact ⟨_, directionPrepared_of (calculate := vcntDirErr) rfl hx⟩
  · exact ⟨_, directionPrepared_of (calculate := vcntDirAbser) rfl ((C260_abs_is_err _).1.trans hx)⟩

theorem directionPrepared_not_nan (f : Frame) (s : String) (zs : List (List Val)) : directionPrepared f s zs ≠ .ok .nan := by
  intro h
  unfold directionPrepared at h
  simp only [bind, Except.bind] at h
  split at h
  · cases h
  · split at h
    · cases h
    · next c _ =>
      revert h
      cases c _ <;> intro h <;> simp [realNum] at h

/-! ### The runs -/

section
variable {f : Frame} {p : AggParams} {init : List (String × List String)} {sv : String × List String}
  {parts : String → List String} {fix : List (String × List String)} {fv : String} {sts : List String}
  {rest : List (String × List String)}

/-- C264: in a run on VCNT lines with event equalization, every direction in the table is determined by the mean winds of
all common cases of its point, pooled (`DirectionScore`). -/
theorem C264_directions (etb : List PyNum → List PyNum → PyNum) (out : List AggOut)
    (R : OneAxisRun f p init sv parts fix fv sts rest) (key : List Val → String)
    (hkey : ∀ r ∈ f.rows, IsCaseKey f p.indyVar true r (key r)) (pairs : List Val → List WindPair)
    (L : WindLines vl1l2Columns f pairs) (h : aggRun (directionStat f) etb f p = .ok out) (hne : out ≠ []) :
    ∃ plain derived, out = plain ++ derived ∧
      (∀ pt, pt ∈ plain.map AggOut.point ↔
        ∃ as, List.Forall₂ (fun x q => x ∈ q.2) as (init ++ [sv]) ∧ ∃ i ∈ p.indyVals, ∃ st ∈ p.axis₁.stats,
          pt = as ++ [i, st]) ∧
      ∀ o ∈ plain, ∀ as i st, o.point = as ++ [i, st] →
        ∀ rows, rows = comparedRows f (init ++ [sv]) parts fix fv p.indyVar key as i st →
          (rows = [] → o.value = .none) ∧ (rows ≠ [] → DirectionScore (lower st) (rows.flatMap pairs) o.value) :=
  run_scores _ (fun s rows v => DirectionScore s (rows.flatMap pairs) v) etb out R key hkey (fun s rows v hr hsub hv => by
    obtain ⟨data, hs, hv⟩ := directionStat_inv hv
    exact direction_value L hs hr hsub hv) h hne

/-- C264: such a run completes when no derived curves are requested. -/
theorem C264_completes (etb : List PyNum → List PyNum → PyNum)
    (R : OneAxisRun f p init sv parts fix fv sts rest) (pairs : List Val → List WindPair)
    (L : WindLines vl1l2Columns f pairs) (hd : p.axis₁.derived = [])
    (hs : ∀ s ∈ p.axis₁.stats, lower s ∈ ["vcnt_fdir", "vcnt_odir", "vcnt_vdiff_dir", "vcnt_dir_err", "vcnt_dir_abser"]) :
    ∃ out, aggRun (directionStat f) etb f p = .ok out := by
  refine run_completes _ etb R hd (fun s hsm rows hr hsub => ?_)
  obtain ⟨data, hsd⟩ := sortData_exists R.input rows
  rw [directionStat_sorted hsd]
  exact direction_exists L (sorted_ne hsd hr) (fun r hr => hsub r ((sortData_spec hsd).1.mem_iff.mp hr)) (hs s hsm)

/-- C258, VCNT lines: directions (`DirectionScore`). -/
theorem C258_directions (etb : List PyNum → List PyNum → PyNum) (s : BootSettings) (draws₁ draws₂ : ℕ → ℕ → List (List ℕ))
    (k : ℕ) (hdraw : ∀ i n, IndexMatrix n k (draws₁ i n)) (hm : s.method ≠ .other) (out : List BootOut)
    (R : OneAxisRun f p init sv parts fix fv sts rest) (key : List Val → String)
    (hkey : ∀ r ∈ f.rows, IsCaseKey f p.indyVar true r (key r)) (pairs : List Val → List WindPair)
    (L : WindLines vl1l2Columns f pairs)
    (hs : ∀ st ∈ p.axis₁.stats, lower st ∈ ["vcnt_fdir", "vcnt_odir", "vcnt_vdiff_dir", "vcnt_dir_err", "vcnt_dir_abser"])
    (h : bootRun (directionPrepared f) etb s draws₁ draws₂ f p = .ok out) (hne : out ≠ []) :
    ShowsScores f p (init ++ [sv]) parts fix fv key k s.method
      (fun s rows v => DirectionScore s (rows.flatMap pairs) v) out :=
  shows_scores _ _ etb s draws₁ draws₂ k hdraw hm out R key hkey (directionPrepared_not_nan _)
    (fun _ _ _ _ _ hp h1 h2 h3 => direction_value L hp h1 h2 h3)
    (fun st hst _ z1 z2 => exists_not_keyError (direction_exists L z1 z2 (hs st hst))) h hne

/-- C262: a bootstrapped run on the forecast direction completes if all forecast winds blow from the west. -/
theorem C262_directions (etb : List PyNum → List PyNum → PyNum) (s : BootSettings) (draws₁ draws₂ : ℕ → ℕ → List (List ℕ))
    (k : ℕ) (hk : 0 < k) (hdraw : ∀ i n, IndexMatrix n k (draws₁ i n)) (R : OneAxisRun f p init sv parts fix fv sts rest)
    (hnd : p.axis₁.derived = []) (pairs : List Val → List WindPair) (L : WindLines vl1l2Columns f pairs)
    (hw : ∀ r ∈ f.rows, ∀ w ∈ pairs r, 1 / 10 ^ 5 ≤ w.uf) (hs : ∀ st ∈ p.axis₁.stats, lower st = "vcnt_fdir") :
    ∃ out, bootRun (directionPrepared f) etb s draws₁ draws₂ f p = .ok out :=
  C262_completes_partial _ etb s draws₁ draws₂ k hk hdraw R hnd (fun st hst zs z1 z2 => by
    rw [hs st hst]
    obtain ⟨v, hv⟩ := direction_exists L z1 z2 (st := "vcnt_fdir") (by simp)
    have hd := (direction_value L (List.Perm.refl _) z1 z2 hv).fdir rfl
    have hpool : zs.flatMap pairs ≠ [] := by
      obtain ⟨r, hr⟩ := List.exists_mem_of_ne_nil _ z1
      intro h0
      have := List.flatMap_eq_nil_iff.mp h0 r hr
      exact L.batch r (z2 r hr) this
    have havg : 1 / 10 ^ 5 ≤ avg WindPair.uf (zs.flatMap pairs) := by
      have hl : (0 : ℚ) < (zs.flatMap pairs).length := by
        exact_mod_cast List.length_pos_iff.mpr hpool
      have hsum : ∀ l : List WindPair, (∀ w ∈ l, 1 / 10 ^ 5 ≤ w.uf) → (l.length : ℚ) * (1 / 10 ^ 5) ≤ (l.map WindPair.uf).sum := by
        intro l
        induction l with
        | nil => intro _; simp
        | cons w l ih =>
          intro hl
          have h1 := ih (fun w hw => hl w (List.mem_cons_of_mem _ hw))
          have h2 := hl w (by simp)
          simp only [List.map_cons, List.sum_cons, List.length_cons]
          push_cast
          linarith
      unfold avg
      rw [le_div_iff₀ hl]
      have := hsum (zs.flatMap pairs) (by
        intro w hw'
        obtain ⟨r, hr, hw'⟩ := List.mem_flatMap.mp hw'
        exact hw r (z2 r hr) w hw')
      linarith
    obtain ⟨q, hq, -⟩ := hd.wind (by
      rintro ⟨h1, -⟩
      have := le_abs_self (avg WindPair.uf (zs.flatMap pairs))
      linarith)
    exact ⟨q, by rw [hv, hq]⟩)

end

/-! ### Examples -/

/-- The wind vectors behind the lines of the example (uf, vf, uo, vo and the speeds). -/
def exDirWinds (r : List Val) : List WindPair :=
  if cellAt r 0 = .str "t2" then [⟨1, 0, 1, 0, 1, 1⟩]
  else if cellAt r 0 = .str "t1" then
    if cellAt r 2 = .str "A" then [⟨3, 4, 0, 0, 5, 0⟩] else [⟨2, 0, 0, 0, 2, 0⟩]
  else [⟨3, 4, 0, 0, 5, 0⟩, ⟨3, 4, 3, 4, 5, 5⟩]

/-- VCNT lines. -/
def exDirLines : Frame := exLines ("total" :: vl1l2Columns) "VCNT_FDIR"
  [("t1", "A", [1, 3, 4, 0, 0, 0, 25, 0, 5, 0]),
   ("t2", "A", [1, 1, 0, 1, 0, 1, 1, 1, 1, 1]),
   ("t1", "B", [1, 2, 0, 0, 0, 0, 4, 0, 2, 0]),
   ("t3", "A", [2, 3, 4, 3/2, 2, 25/2, 25, 25/2, 5, 5/2]),
   ("t3", "B", [2, 3, 4, 3/2, 2, 25/2, 25, 25/2, 5, 5/2])]

theorem exDirLines_lines : WindLines vl1l2Columns exDirLines exDirWinds where
  batch := by decide +kernel
  total := exLines_number 5 rfl (by decide +kernel) (by decide +kernel)
  field := by
    intro c hc
    have h : ∀ c ∈ vl1l2Columns, exDirLines.cols[6 + vl1l2Columns.idxOf c]? = some c ∧
        (∀ j < 6 + vl1l2Columns.idxOf c, exDirLines.cols[j]? ≠ some c) ∧
        ∀ r ∈ exDirLines.rows, numberOf (cellAt r (6 + vl1l2Columns.idxOf c)) = some (avg (windSum c) (exDirWinds r)) := by
      decide +kernel
    obtain ⟨h1, h2, h3⟩ := h c hc
    exact exLines_number _ h1 h2 h3

theorem exDirLines_input : OneAxisRun exDirLines (exLinesParams "VCNT_FDIR") [] ("model", ["A", "B"]) (fun v => [v]) [] "TMP"
    ["VCNT_FDIR"] [] :=
  exLines_input (by unfold FrameWF; decide +kernel) (by decide)
    ⟨by decide, by decide, plainText_of (by decide) (by decide) (by decide)⟩ (by decide +kernel)

example : ∃ out, aggRun (directionStat exDirLines) (fun _ _ => .none) exDirLines (exLinesParams "VCNT_FDIR") = .ok out ∧
    out ≠ [] ∧ ∃ plain derived, out = plain ++ derived := by
  obtain ⟨out, h⟩ := C264_completes (fun _ _ => .none) exDirLines_input exDirWinds exDirLines_lines rfl (by decide +kernel)
  have hne := run_nonempty _ _ _ exDirLines_input h _ rfl (by unfold FrameWF; decide +kernel) (by decide +kernel)
    (by decide +kernel)
  obtain ⟨plain, derived, e, -⟩ := C264_directions _ _ exDirLines_input exRunKey (exLines_key _ _ _) _ exDirLines_lines h hne
  exact ⟨out, h, hne, plain, derived, e⟩

example : ∃ out, bootRun (directionPrepared exDirLines) (fun _ _ => .none) ⟨1 / 2, .perc, false⟩ threeDraws threeDraws
    exDirLines (exLinesParams "VCNT_FDIR") = .ok out ∧ out ≠ [] ∧
    ShowsScores exDirLines (exLinesParams "VCNT_FDIR") [("model", ["A", "B"])] (fun v => [v]) [] "TMP" exRunKey 3 .perc
      (fun s rows v => DirectionScore s (rows.flatMap exDirWinds) v) out := by
  obtain ⟨out, h⟩ := C262_directions (fun _ _ => .none) ⟨1 / 2, .perc, false⟩ threeDraws threeDraws 3 (by decide) threeDraws_ok
    exDirLines_input rfl _ exDirLines_lines (by decide +kernel) (by decide +kernel)
  have hne := boot_nonempty _ _ _ _ _ 3 threeDraws_ok _ exDirLines_input
    (fun st hst _ z1 z2 => exists_not_keyError (direction_exists exDirLines_lines z1 z2 (by
      rw [List.mem_singleton.mp hst]; decide +kernel))) h _ rfl rfl (by decide +kernel) (by decide +kernel)
    ["A", "6", "VCNT_FDIR"] (.cons (by decide) (.cons (by decide) (.cons (by decide) .nil)))
  exact ⟨out, h, hne, C258_directions _ _ _ _ 3 threeDraws_ok (by simp) out exDirLines_input exRunKey (exLines_key _ _ _)
    exDirWinds exDirLines_lines (by decide +kernel) h hne⟩

end Metcalcpy.Props
