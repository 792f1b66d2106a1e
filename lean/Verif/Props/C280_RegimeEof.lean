/-
C280  The patterns of weather regimes are those of the departures from trend and mean of each day of the season.
C281  Calc_EOF leaves its argument as it is.
-/
import Verif.Model.RegimeEof
import Verif.Props.C190_Omi

namespace Metcalcpy.Props
open Metcalcpy

/-! ### One series -/

theorem detrend_sum (n : ℕ) (hn : 0 < n) (x : ℕ → ℝ) : ∑ s ∈ Finset.range n, detrendSeries n x s = 0 := by
  unfold detrendSeries
  dsimp only
  have hn0 : (n : ℝ) ≠ 0 := by positivity
  set tm := (∑ s ∈ Finset.range n, (s : ℝ)) / n with htm
  set xm := (∑ s ∈ Finset.range n, x s) / n with hxm
  generalize (∑ s ∈ Finset.range n, ((s : ℝ) - tm) * (x s - xm)) / ∑ s ∈ Finset.range n, ((s : ℝ) - tm) ^ 2 = k
  rw [Finset.sum_sub_distrib, Finset.sum_add_distrib, ← Finset.mul_sum, Finset.sum_sub_distrib, Finset.sum_const, Finset.sum_const,
    Finset.card_range, nsmul_eq_mul, nsmul_eq_mul, htm, hxm]
  field_simp
  ring

theorem detrend_moment (n : ℕ) (hn : 0 < n) (x : ℕ → ℝ) : ∑ s ∈ Finset.range n, (s : ℝ) * detrendSeries n x s = 0 := by
  rcases Nat.lt_or_ge n 2 with h1 | h2
  · obtain rfl : n = 1 := by omega
    simp
  have h0 := detrend_sum n hn x
  unfold detrendSeries at h0 ⊢
  dsimp only at h0 ⊢
  have hn0 : (n : ℝ) ≠ 0 := by positivity
  set tm := (∑ s ∈ Finset.range n, (s : ℝ)) / n with htm
  set xm := (∑ s ∈ Finset.range n, x s) / n with hxm
  have hpos := spread_pos n h2 tm
  set k := (∑ s ∈ Finset.range n, ((s : ℝ) - tm) * (x s - xm)) / ∑ s ∈ Finset.range n, ((s : ℝ) - tm) ^ 2 with hk
  have hk' : ∑ s ∈ Finset.range n, ((s : ℝ) - tm) * (x s - xm) = k * ∑ s ∈ Finset.range n, ((s : ℝ) - tm) ^ 2 := by
    rw [hk, div_mul_cancel₀ _ hpos.ne']
  have e : ∑ s ∈ Finset.range n, (s : ℝ) * (x s - (xm + k * ((s : ℝ) - tm))) =
      (∑ s ∈ Finset.range n, ((s : ℝ) - tm) * (x s - xm)) - k * (∑ s ∈ Finset.range n, ((s : ℝ) - tm) ^ 2) +
      tm * ∑ s ∈ Finset.range n, (x s - (xm + k * ((s : ℝ) - tm))) := by
    rw [Finset.mul_sum, Finset.mul_sum, ← Finset.sum_sub_distrib, ← Finset.sum_add_distrib]
    exact Finset.sum_congr rfl fun s _ => by ring
  rw [e, hk', h0]
  ring

theorem eofSeries_eq (n : ℕ) (hn : 0 < n) (x : ℕ → ℝ) (s : ℕ) : eofSeries n x s = detrendSeries n x s := by
  unfold eofSeries
  rw [detrend_sum n hn x]
  simp

/-- A series without mean and trend stays as it is. -/
theorem detrend_fixed (n : ℕ) (x : ℕ → ℝ) (h0 : ∑ s ∈ Finset.range n, x s = 0) (h1 : ∑ s ∈ Finset.range n, (s : ℝ) * x s = 0) (t : ℕ) :
    detrendSeries n x t = x t := by
  unfold detrendSeries
  dsimp only
  rw [h0]
  have : ∑ s ∈ Finset.range n, ((s : ℝ) - (∑ s ∈ Finset.range n, (s : ℝ)) / n) * (x s - 0 / n) = 0 := by
    generalize (∑ s ∈ Finset.range n, (s : ℝ)) / (n : ℝ) = tm
    have e : ∑ s ∈ Finset.range n, ((s : ℝ) - tm) * (x s - 0 / n) = (∑ s ∈ Finset.range n, (s : ℝ) * x s) - tm * ∑ s ∈ Finset.range n, x s := by
      rw [Finset.mul_sum, ← Finset.sum_sub_distrib]
      exact Finset.sum_congr rfl fun s _ => by ring
    rw [e, h0, h1]
    ring
  rw [this]
  simp

theorem detrend_trend (n : ℕ) (hn : 0 < n) (x : ℕ → ℝ) (a b : ℝ) (t : ℕ) (ht : t < n) :
    detrendSeries n (fun s => x s + (a + b * s)) t = detrendSeries n x t := by
  rcases Nat.lt_or_ge n 2 with h1 | h2
  · obtain rfl : n = 1 := by omega
    obtain rfl : t = 0 := by omega
    unfold detrendSeries
    simp
  · exact detrendSeries_trend n h2 x a b t

/-! ### C280 -/

/-- The departures the solver receives, by season, day and point. -/
noncomputable def departures (ns nd : ℕ) (x : ℕ → ℕ → ℕ → ℝ) : ℕ → ℕ → ℕ → ℝ := (calcEof (fun _ M => M) ns nd x).1 |> fun M s d p => M (s * nd + d) p

theorem departures_eq (ns nd : ℕ) (x : ℕ → ℕ → ℕ → ℝ) (s d p : ℕ) (hs : s < ns) (hd : d < nd) :
    departures ns nd x s d p = detrendSeries ns (fun r => x r d p) s := by
  have hr : s * nd + d < ns * nd := by
    calc s * nd + d < s * nd + nd := by omega
      _ = (s + 1) * nd := by ring
      _ ≤ ns * nd := Nat.mul_le_mul_right _ hs
  have hq : (s * nd + d) / nd = s := by
    rw [Nat.mul_comm, Nat.mul_add_div (by omega), Nat.div_eq_of_lt hd, Nat.add_zero]
  have hm : (s * nd + d) % nd = d := by
    rw [Nat.mul_comm, Nat.mul_add_mod, Nat.mod_eq_of_lt hd]
  simp only [departures, calcEof, eofRows, eofCleaned, if_pos hr, hq, hm, if_pos (And.intro hs hd)]
  exact eofSeries_eq ns (by omega) _ s

/-- C280: the data that are decomposed are, at every day of the season and grid point, the data less a linear function of the season,
chosen so that mean and trend over the seasons are zero. -/
theorem C280_departures (ns nd : ℕ) (x : ℕ → ℕ → ℕ → ℝ) (hn : 0 < ns) (d p : ℕ) (hd : d < nd) :
    (∃ a b : ℝ, ∀ s < ns, departures ns nd x s d p = x s d p - (a + b * s)) ∧
      ∑ s ∈ Finset.range ns, departures ns nd x s d p = 0 ∧ ∑ s ∈ Finset.range ns, (s : ℝ) * departures ns nd x s d p = 0 := by
  have e : ∀ s ∈ Finset.range ns, departures ns nd x s d p = detrendSeries ns (fun r => x r d p) s :=
    fun s hs => departures_eq ns nd x s d p (Finset.mem_range.mp hs) hd
  refine ⟨?_, ?_, ?_⟩
  · refine ⟨(∑ s ∈ Finset.range ns, x s d p) / ns - ((∑ s ∈ Finset.range ns, ((s : ℝ) - (∑ s ∈ Finset.range ns, (s : ℝ)) / ns) *
      (x s d p - (∑ s ∈ Finset.range ns, x s d p) / ns)) / ∑ s ∈ Finset.range ns, ((s : ℝ) - (∑ s ∈ Finset.range ns, (s : ℝ)) / ns) ^ 2) *
      ((∑ s ∈ Finset.range ns, (s : ℝ)) / ns), (∑ s ∈ Finset.range ns, ((s : ℝ) - (∑ s ∈ Finset.range ns, (s : ℝ)) / ns) *
      (x s d p - (∑ s ∈ Finset.range ns, x s d p) / ns)) / ∑ s ∈ Finset.range ns, ((s : ℝ) - (∑ s ∈ Finset.range ns, (s : ℝ)) / ns) ^ 2, ?_⟩
    intro s hs
    rw [e s (Finset.mem_range.mpr hs)]
    unfold detrendSeries
    ring
  · rw [Finset.sum_congr rfl e]
    exact detrend_sum ns hn _
  · rw [Finset.sum_congr rfl fun s hs => by rw [e s hs]]
    exact detrend_moment ns hn _

/-- C280: a linear change over the seasons, another one at every day of the season and point (in particular another climate), changes
nothing of the result, whatever is computed from the departures. -/
theorem C280_trend {α : Type} (solver : ℕ → (ℕ → ℕ → ℝ) → α) (ns nd : ℕ) (x : ℕ → ℕ → ℕ → ℝ) (a b : ℕ → ℕ → ℝ) :
    (calcEof solver ns nd fun s d p => x s d p + (a d p + b d p * s)).1 = (calcEof solver ns nd x).1 := by
  simp only [calcEof]
  congr 1
  funext r p
  by_cases hr : r < ns * nd
  · have hnd : 0 < nd := Nat.pos_of_ne_zero (by rintro rfl; simp at hr)
    have hs : r / nd < ns := Nat.div_lt_of_lt_mul (by rwa [Nat.mul_comm])
    have hd : r % nd < nd := Nat.mod_lt _ hnd
    simp only [if_pos hr, eofRows, eofCleaned, if_pos (And.intro hs hd)]
    have hn : 0 < ns := Nat.lt_of_le_of_lt (Nat.zero_le _) hs
    rw [eofSeries_eq ns hn, eofSeries_eq ns hn]
    exact detrend_trend ns hn (fun r' => x r' (r % nd) p) (a _ p) (b _ p) _ hs
  · simp only [if_neg hr]

/-- C280: with one or two seasons nothing is left: all departures are zero. -/
theorem C280_two_seasons (ns nd : ℕ) (x : ℕ → ℕ → ℕ → ℝ) (hn : ns ≤ 2) (s d p : ℕ) (hs : s < ns) (hd : d < nd) :
    departures ns nd x s d p = 0 := by
  obtain ⟨-, h0, h1⟩ := C280_departures ns nd x (by omega) d p hd
  have hc : ns = 1 ∨ ns = 2 := by omega
  rcases hc with rfl | rfl
  · obtain rfl : s = 0 := by omega
    simpa using h0
  · simp only [Finset.sum_range_succ, Finset.sum_range_zero, Nat.cast_zero, zero_mul, zero_add, Nat.cast_one, one_mul] at h0 h1
    have hc : s = 0 ∨ s = 1 := by omega
    rcases hc with rfl | rfl
    · linarith
    · exact h1

/-! ### C281 -/

/-- C281, what holds: the call overwrites the data of its argument with the departures, so the argument stays as it is exactly when mean
and trend over the seasons were zero at every day and point; nothing outside of the seasons and days is touched. -/
theorem C281_overwritten_exactly_partial {α : Type} (solver : ℕ → (ℕ → ℕ → ℝ) → α) (ns nd : ℕ) (x : ℕ → ℕ → ℕ → ℝ) (hn : 0 < ns) :
    (∀ s d p, s < ns → d < nd → (calcEof solver ns nd x).2 s d p = departures ns nd x s d p) ∧
      (∀ s d p, ¬ (s < ns ∧ d < nd) → (calcEof solver ns nd x).2 s d p = x s d p) ∧
      ((calcEof solver ns nd x).2 = x ↔ ∀ d < nd, ∀ p, ∑ s ∈ Finset.range ns, x s d p = 0 ∧ ∑ s ∈ Finset.range ns, (s : ℝ) * x s d p = 0) := by
  have hin : ∀ s d p, s < ns → d < nd → (calcEof solver ns nd x).2 s d p = departures ns nd x s d p := by
    intro s d p hs hd
    rw [departures_eq ns nd x s d p hs hd]
    simp only [calcEof, eofCleaned, if_pos (And.intro hs hd)]
    exact eofSeries_eq ns hn _ s
  have hout : ∀ s d p, ¬ (s < ns ∧ d < nd) → (calcEof solver ns nd x).2 s d p = x s d p := by
    intro s d p h
    simp only [calcEof, eofCleaned, if_neg h]
  refine ⟨hin, hout, ?_, ?_⟩
  · intro h d hd p
    obtain ⟨-, h0, h1⟩ := C280_departures ns nd x hn d p hd
    have e : ∀ s ∈ Finset.range ns, departures ns nd x s d p = x s d p := fun s hs => by
      rw [← hin s d p (Finset.mem_range.mp hs) hd, h]
    rw [Finset.sum_congr rfl e] at h0
    rw [Finset.sum_congr rfl fun s hs => by rw [e s hs]] at h1
    exact ⟨h0, h1⟩
  · intro h
    funext s d p
    by_cases hc : s < ns ∧ d < nd
    · rw [hin s d p hc.1 hc.2, departures_eq ns nd x s d p hc.1 hc.2]
      exact detrend_fixed ns _ (h d hc.2 p).1 (h d hc.2 p).2 s
    · exact hout s d p hc

/-- C281, what holds: calling again with the overwritten argument gives the same result and does not change it any more. -/
theorem C281_again_partial {α : Type} (solver : ℕ → (ℕ → ℕ → ℝ) → α) (ns nd : ℕ) (x : ℕ → ℕ → ℕ → ℝ) (hn : 0 < ns) :
    calcEof solver ns nd (calcEof solver ns nd x).2 = calcEof solver ns nd x := by
  have hfix : (calcEof solver ns nd (calcEof solver ns nd x).2).2 = (calcEof solver ns nd x).2 := by
    rw [(C281_overwritten_exactly_partial solver ns nd (calcEof solver ns nd x).2 hn).2.2]
    intro d hd p
    obtain ⟨-, h0, h1⟩ := C280_departures ns nd x hn d p hd
    have e : ∀ s ∈ Finset.range ns, (calcEof solver ns nd x).2 s d p = departures ns nd x s d p := fun s hs =>
      (C281_overwritten_exactly_partial solver ns nd x hn).1 s d p (Finset.mem_range.mp hs) hd
    have e' : ∀ s ∈ Finset.range ns, (s : ℝ) * (calcEof solver ns nd x).2 s d p = s * departures ns nd x s d p := fun s hs => by rw [e s hs]
    rw [Finset.sum_congr rfl e, Finset.sum_congr rfl e']
    exact ⟨h0, h1⟩
  have hfst : ∀ y : ℕ → ℕ → ℕ → ℝ, (calcEof solver ns nd y).1 =
      solver (ns * nd) fun r p => if r < ns * nd then eofRows nd (calcEof solver ns nd y).2 r p else 0 := fun y => rfl
  refine Prod.ext ?_ hfix
  rw [hfst (calcEof solver ns nd x).2, hfst x, hfix]

/-- C281 is false: heights with a mean. -/
theorem C281_argument_counterexample {α : Type} (solver : ℕ → (ℕ → ℕ → ℝ) → α) :
    (calcEof solver 3 1 fun _ _ _ => 5500).2 ≠ fun _ _ _ => 5500 := by
  rw [Ne, (C281_overwritten_exactly_partial solver 3 1 _ (by norm_num)).2.2]
  intro h
  have := (h 0 (by norm_num) 0).1
  norm_num at this

/-- Three seasons of one day and point, 1, 2, 6: the line is 1/2 + 5/2 s. -/
example : departures 3 1 (fun s _ _ => if s = 0 then 1 else if s = 1 then 2 else 6) 1 0 0 = -1 := by
  rw [departures_eq 3 1 _ 1 0 0 (by norm_num) (by norm_num)]
  norm_num [detrendSeries, Finset.sum_range_succ]

end Metcalcpy.Props
