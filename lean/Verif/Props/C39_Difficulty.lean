/-
C39  The forecast difficulty index stays in [0, 1.5] (false for negative spreads, which are accepted).
C40  Piecewise-linear functions interpolate within bounds; unsorted domains are rejected (false).
-/
import Verif.Spec.Difficulty
import Mathlib.Tactic.Linarith
import Mathlib.Tactic.FieldSimp
import Mathlib.Tactic.Positivity
import Mathlib.Tactic.Ring

namespace Metcalcpy.Props
open Metcalcpy Spec

/-! ### C40 -/

/-- C40 fails: no domain is ever rejected as unsorted.  The object is built exactly when there are at least
two knots and as many values. -/
theorem C40_never_unsorted (xs ys : List ℚ) (l r : Cell) :
    mkPlin xs ys l r ≠ .error .unsortedArray ∧
    (mkPlin xs ys l r = .ok ⟨xs, ys, l, r⟩ ↔ 2 ≤ xs.length ∧ xs.length = ys.length) := by
  have hb : ∀ b, ¬ boolInt b < 0 := by intro b; cases b <;> decide
  unfold mkPlin
  by_cases h1 : xs.length < 2
  · rw [if_pos h1]
    exact ⟨by simp, by simp; omega⟩
  · rw [if_neg h1, if_neg (hb _)]
    by_cases h2 : xs.length = ys.length
    · rw [if_neg (by simpa using h2)]
      exact ⟨by simp, by simp [h2]; omega⟩
    · rw [if_pos h2]
      exact ⟨by simp, by simp [h2]⟩

theorem C40_counterexample : mkPlin [2, 1] [0, 1] none none = .ok ⟨[2, 1], [0, 1], none, none⟩ := by
  decide +kernel

theorem interpFrom_spec (x : ℚ) (right : Cell) : ∀ (rest : List (ℚ × ℚ)) (x0 y0 : ℚ),
    ((x0, y0) :: rest).Pairwise (fun a b => a.1 < b.1) → x0 ≤ x →
    (∀ p ∈ (x0, y0) :: rest, p.1 = x → interpFrom x x0 y0 right rest = some p.2) ∧
    (∀ (i : ℕ) (a b : ℚ × ℚ), ((x0, y0) :: rest)[i]? = some a → ((x0, y0) :: rest)[i + 1]? = some b →
      a.1 ≤ x → x ≤ b.1 → ∃ v, interpFrom x x0 y0 right rest = some v ∧
        (v - a.2) * (b.1 - a.1) = (b.2 - a.2) * (x - a.1)) ∧
    ((∀ p ∈ (x0, y0) :: rest, p.1 < x) → interpFrom x x0 y0 right rest = right) := by
  intro rest
  induction rest with
  | nil =>
    intro x0 y0 _ hx
    refine ⟨?_, ?_, ?_⟩
    · intro p hp hpx
      rw [List.mem_singleton] at hp
      subst hp
      simp only at hpx
      simp [interpFrom, hpx]
    · intro i a b ha hb _ _
      simp at hb
    · intro h
      have := h (x0, y0) (by simp)
      simp only at this
      simp [interpFrom, this]
  | cons q rest ih =>
    obtain ⟨x1, y1⟩ := q
    intro x0 y0 hs hx
    have hs' := List.pairwise_cons.mp hs
    have h01 : x0 < x1 := hs'.1 (x1, y1) (by simp)
    by_cases h1 : x1 ≤ x
    · have e : interpFrom x x0 y0 right ((x1, y1) :: rest) = interpFrom x x1 y1 right rest := by
        simp [interpFrom, h1]
      obtain ⟨a1, a2, a3⟩ := ih x1 y1 hs'.2 h1
      rw [e]
      refine ⟨?_, ?_, ?_⟩
      · intro p hp hpx
        rcases List.mem_cons.mp hp with rfl | hp
        · simp only at hpx; exfalso; linarith
        · exact a1 p hp hpx
      · intro i a b ha hb hax hxb
        cases i with
        | zero =>
          simp only [List.getElem?_cons_zero, Option.some.injEq] at ha
          simp only [zero_add, List.getElem?_cons_succ, List.getElem?_cons_zero, Option.some.injEq] at hb
          subst ha hb
          simp only at hxb ⊢
          have hxe : x1 = x := le_antisymm h1 hxb
          refine ⟨y1, a1 (x1, y1) (by simp) hxe, ?_⟩
          rw [hxe]
        | succ i =>
          rw [List.getElem?_cons_succ] at ha hb
          exact a2 i a b ha hb hax hxb
      · intro h
        exact a3 (fun p hp => h p (by simp [hp]))
    · have hlt : x < x1 := not_le.mp h1
      have hall : ∀ p ∈ (x1, y1) :: rest, x < p.1 := by
        intro p hp
        rcases List.mem_cons.mp hp with rfl | hp
        · exact hlt
        · exact hlt.trans ((List.pairwise_cons.mp hs'.2).1 p hp)
      refine ⟨?_, ?_, ?_⟩
      · intro p hp hpx
        rcases List.mem_cons.mp hp with rfl | hp
        · simp only at hpx
          simp [interpFrom, h1, hpx]
        · exact absurd hpx (hall p hp).ne'
      · intro i a b ha hb hax hxb
        cases i with
        | zero =>
          simp only [List.getElem?_cons_zero, Option.some.injEq] at ha
          simp only [zero_add, List.getElem?_cons_succ, List.getElem?_cons_zero, Option.some.injEq] at hb
          subst ha hb
          by_cases hx0 : x = x0
          · refine ⟨y0, by rw [interpFrom, if_neg h1, if_pos hx0], ?_⟩
            simp only [hx0]; ring
          · refine ⟨(y1 - y0) / (x1 - x0) * (x - x0) + y0, by simp [interpFrom, h1, hx0], ?_⟩
            have : x1 - x0 ≠ 0 := by intro h; linarith
            simp only
            field_simp
            ring
        | succ i =>
          rw [List.getElem?_cons_succ] at ha
          have := hall a (List.mem_of_getElem? ha)
          exfalso; linarith
      · intro h
        have := h (x1, y1) (by simp)
        simp only at this
        exfalso; linarith

theorem pairwise_zip {xs ys : List ℚ} (h : xs.Pairwise (· < ·)) :
    (xs.zip ys).Pairwise (fun a b => a.1 < b.1) := by
  induction xs generalizing ys with
  | nil => simp
  | cons x xs ih =>
    cases ys with
    | nil => simp
    | cons y ys =>
      rw [List.pairwise_cons] at h
      rw [List.zip_cons_cons, List.pairwise_cons]
      refine ⟨?_, ih h.2⟩
      intro p hp
      exact h.1 p.1 (List.of_mem_zip (show (p.1, p.2) ∈ _ from hp)).1

theorem getElem?_zip {xs ys : List ℚ} {i : ℕ} {a b : ℚ} (h1 : xs[i]? = some a) (h2 : ys[i]? = some b) :
    (xs.zip ys)[i]? = some (a, b) := by
  rw [List.getElem?_zip_eq_some]; exact ⟨h1, h2⟩

/-- C40 (for increasing knots): the value at a knot is the one given there; between two neighbouring knots
the value lies on the straight line through them; outside the domain the values chosen for left and right
are returned. -/
theorem C40_interpolation_partial (p : Plin) (hs : p.xs.Pairwise (· < ·)) (hl : p.xs.length = p.ys.length)
    (hn : 2 ≤ p.xs.length) (x : ℚ) :
    (∀ (i : ℕ) (y : ℚ), p.xs[i]? = some x → p.ys[i]? = some y → p.value x = some y) ∧
    (∀ a b, Segment p.xs p.ys a b → a.1 ≤ x → x ≤ b.1 →
      ∃ v, p.value x = some v ∧ (v - a.2) * (b.1 - a.1) = (b.2 - a.2) * (x - a.1) ∧
        min a.2 b.2 ≤ v ∧ v ≤ max a.2 b.2) ∧
    ((∀ k ∈ p.xs, x < k) → p.value x = p.left) ∧
    ((∀ k ∈ p.xs, k < x) → p.value x = p.right) := by
  obtain ⟨xs, ys, left, right⟩ := p
  simp only at hs hl hn ⊢
  have hz := pairwise_zip (ys := ys) hs
  cases xs with
  | nil => simp at hn
  | cons x0 xs =>
    cases ys with
    | nil => simp at hl
    | cons y0 ys =>
      have hmem : ∀ q ∈ (x0, y0) :: xs.zip ys, q.1 ∈ x0 :: xs := by
        intro q hq
        rw [← List.zip_cons_cons] at hq
        exact (List.of_mem_zip (show (q.1, q.2) ∈ _ from hq)).1
      have hv : ∀ h : x0 ≤ x, Plin.value ⟨x0 :: xs, y0 :: ys, left, right⟩ x =
          interpFrom x x0 y0 right (xs.zip ys) := by
        intro h; simp [Plin.value, not_lt.mpr h]
      have hmin : ∀ k ∈ x0 :: xs, x0 ≤ k := by
        intro k hk
        rcases List.mem_cons.mp hk with rfl | hk
        · exact le_refl _
        · exact ((List.pairwise_cons.mp hs).1 k hk).le
      refine ⟨?_, ?_, ?_, ?_⟩
      · intro i y h1 h2
        have hx := hmin x (List.mem_of_getElem? h1)
        rw [hv hx]
        have := getElem?_zip h1 h2
        exact (interpFrom_spec x right (xs.zip ys) x0 y0 hz hx).1 (x, y) (List.mem_of_getElem? this) rfl
      · rintro a b ⟨i, h1, h2, h3, h4⟩ ha hb
        have hx : x0 ≤ x := (hmin a.1 (List.mem_of_getElem? h1)).trans ha
        rw [hv hx]
        obtain ⟨v, e1, e2⟩ := (interpFrom_spec x right (xs.zip ys) x0 y0 hz hx).2.1 i a b
          (getElem?_zip h1 h2) (getElem?_zip h3 h4) ha hb
        have hab : a.1 < b.1 := by
          have hp := List.pairwise_iff_getElem.mp hs i (i + 1)
            (List.getElem?_eq_some_iff.mp h1).1 (List.getElem?_eq_some_iff.mp h3).1 (by omega)
          rw [(List.getElem?_eq_some_iff.mp h1).2, (List.getElem?_eq_some_iff.mp h3).2] at hp
          exact hp
        refine ⟨v, e1, e2, ?_, ?_⟩
        · rcases le_total a.2 b.2 with h | h
          · rw [min_eq_left h]; nlinarith
          · rw [min_eq_right h]; nlinarith
        · rcases le_total a.2 b.2 with h | h
          · rw [max_eq_right h]; nlinarith
          · rw [max_eq_left h]; nlinarith
      · intro h
        simp [Plin.value, h x0 (by simp)]
      · intro h
        have hx : x0 ≤ x := (h x0 (by simp)).le
        rw [hv hx]
        exact (interpFrom_spec x right (xs.zip ys) x0 y0 hz hx).2.2 (fun q hq => h q.1 (hmem q hq))

example : defaultEnvelope.xs.Pairwise (· < ·) ∧ defaultEnvelope.xs.length = defaultEnvelope.ys.length ∧
    2 ≤ defaultEnvelope.xs.length ∧ defaultEnvelope.value 5 = some (1 / 2) := by decide +kernel

/-! ### C39 -/

theorem foldl_max_ge (l : List ℚ) (r : ℚ) : r ≤ l.foldl max r ∧ ∀ x ∈ l, x ≤ l.foldl max r := by
  induction l generalizing r with
  | nil => simp
  | cons y l ih =>
    obtain ⟨h1, h2⟩ := ih (max r y)
    refine ⟨(le_max_left _ _).trans h1, ?_⟩
    intro x hx
    rcases List.mem_cons.mp hx with rfl | hx
    · exact (le_max_right _ _).trans h1
    · exact h2 x hx

/-- Every value of an envelope with values in [0, m] that is continued by 0 lies in [0, m]. -/
theorem envelope_range (m : ℚ) (hm : 0 ≤ m) (x : ℚ) (right : Cell) (hr : right = some 0) :
    ∀ (rest : List (ℚ × ℚ)) (x0 y0 : ℚ), ((x0, y0) :: rest).Pairwise (fun a b => a.1 < b.1) →
      (∀ p ∈ (x0, y0) :: rest, 0 ≤ p.2 ∧ p.2 ≤ m) → x0 ≤ x →
      ∃ v, interpFrom x x0 y0 right rest = some v ∧ 0 ≤ v ∧ v ≤ m := by
  intro rest
  induction rest with
  | nil =>
    intro x0 y0 _ h _
    have := h (x0, y0) (by simp)
    by_cases hx : x > x0
    · exact ⟨0, by simp [interpFrom, hx, hr], le_refl _, hm⟩
    · exact ⟨y0, by simp [interpFrom, hx], this⟩
  | cons q rest ih =>
    obtain ⟨x1, y1⟩ := q
    intro x0 y0 hs h hx
    have hs' := List.pairwise_cons.mp hs
    have h01 : x0 < x1 := hs'.1 (x1, y1) (by simp)
    by_cases h1 : x1 ≤ x
    · obtain ⟨v, e, hv⟩ := ih x1 y1 hs'.2 (fun p hp => h p (by simp [hp])) h1
      exact ⟨v, by simp [interpFrom, h1, e], hv⟩
    · obtain ⟨_, a2, _⟩ := interpFrom_spec x right ((x1, y1) :: rest) x0 y0 hs hx
      obtain ⟨v, e1, e2⟩ := a2 0 (x0, y0) (x1, y1) rfl rfl hx (not_le.mp h1).le
      have b0 := h (x0, y0) (by simp)
      have b1 := h (x1, y1) (by simp)
      simp only at e2 b0 b1
      have hd : 0 < x1 - x0 := by linarith
      have hx1 : x < x1 := not_le.mp h1
      refine ⟨v, e1, ?_, ?_⟩
      · have : 0 ≤ v * (x1 - x0) := by nlinarith
        exact nonneg_of_mul_nonneg_left this hd
      · have : 0 ≤ (m - v) * (x1 - x0) := by nlinarith
        linarith [nonneg_of_mul_nonneg_left this hd]

theorem threshold_term_range (uf up : ℚ) (h0 : 0 ≤ uf) (h1 : uf ≤ 1) (p0 : 0 ≤ up) (p1 : up ≤ 1) :
    0 ≤ 1 - |1 - uf - up| ∧ 1 - |1 - uf - up| ≤ 1 := by
  constructor
  · have : |1 - uf - up| ≤ 1 := abs_le.mpr ⟨by linarith, by linarith⟩
    linarith
  · linarith [abs_nonneg (1 - uf - up)]

/-- C39 (for spreads that are really positive): with an envelope of increasing knots, values in [0, m] and
0 outside, the index of every point with a positive mean is a number in [0, m]; any ensemble, any threshold,
any accepted reference and factor. -/
theorem C39_range_partial (env : Plin) (m : ℚ) (hm : 0 ≤ m) (hs : env.xs.Pairwise (· < ·))
    (hl : env.xs.length = env.ys.length) (hn : env.xs ≠ []) (hy : ∀ y ∈ env.ys, 0 ≤ y ∧ y ≤ m)
    (hleft : env.left = some 0) (hright : env.right = some 0)
    (pts : List GridPt) (threshold ref uf : ℚ) (hpos : ∀ p ∈ pts, 0 < p.sigma ∧ 0 < p.mu)
    (hmem : ∀ p ∈ pts, p.members ≠ []) (href : EPS ≤ ref) (hu0 : 0 ≤ uf) (hu1 : uf ≤ 1) :
    ∃ out, difficultyIndex env pts threshold ref uf = .ok out ∧ out.length = pts.length ∧
      ∀ c ∈ out, ∃ v, c = some v ∧ 0 ≤ v ∧ v ≤ m := by
  have hall : pts.all (fun p => p.sigma ≠ 0) = true := by
    rw [List.all_eq_true]
    intro p hp
    simpa using (hpos p hp).1.ne'
  have hE : (0 : ℚ) < EPS := by norm_num [EPS]
  have hchk : difficultyCheck pts ref uf = .ok () := by
    unfold difficultyCheck
    rw [hall, if_neg, if_neg, if_neg]
    · push Not; exact ⟨hu0, hu1⟩
    · push Not; exact href
    · push Not; norm_num [boolInt, EPS]
  refine ⟨_, by simp only [difficultyIndex, hchk, bind, Except.bind]; rfl, by simp, ?_⟩
  intro c hc
  obtain ⟨p, hp, rfl⟩ := List.mem_map.mp hc
  obtain ⟨hsig, hmu⟩ := hpos p hp
  obtain ⟨f1, f2⟩ := foldl_max_ge (pts.map (fun p => p.sigma / p.mu)) ref
  generalize (pts.map (fun p => p.sigma / p.mu)).foldl max ref = R at *
  have hR : 0 < R := lt_of_lt_of_le hE (href.trans f1)
  have hq : p.sigma / p.mu ≤ R := f2 _ (List.mem_map.mpr ⟨p, hp, rfl⟩)
  have hq0 : 0 ≤ p.sigma / p.mu := (div_pos hsig hmu).le
  have hv0 : 0 ≤ p.sigma / p.mu / R := div_nonneg hq0 hR.le
  have hv1 : p.sigma / p.mu / R ≤ 1 := by rw [div_le_one hR]; exact hq
  have hlen : (0 : ℚ) < p.members.length := by
    exact_mod_cast List.length_pos_iff.mpr (hmem p hp)
  have hup0 : 0 ≤ ((p.members.filter (fun x => x < threshold)).length : ℚ) / p.members.length := by positivity
  have hup1 : ((p.members.filter (fun x => x < threshold)).length : ℚ) / p.members.length ≤ 1 := by
    rw [div_le_one hlen]; exact_mod_cast List.length_filter_le _ _
  obtain ⟨t0, t1⟩ := threshold_term_range uf _ hu0 hu1 hup0 hup1
  have henv : ∃ v, env.value p.mu = some v ∧ 0 ≤ v ∧ v ≤ m := by
    obtain ⟨xs, ys, left, right⟩ := env
    simp only at hs hl hn hy hleft hright
    cases xs with
    | nil => exact absurd rfl hn
    | cons x0 xs =>
      cases ys with
      | nil => simp at hl
      | cons y0 ys =>
        by_cases hx : p.mu < x0
        · exact ⟨0, by simp [Plin.value, hx, hleft], le_refl _, hm⟩
        · obtain ⟨v, e, hv⟩ := envelope_range m hm p.mu right hright (xs.zip ys) x0 y0
            (pairwise_zip (ys := y0 :: ys) hs)
            (by
              intro q hq
              rw [← List.zip_cons_cons] at hq
              exact hy q.2 (List.of_mem_zip (show (q.1, q.2) ∈ _ from hq)).2)
            (not_lt.mp hx)
          exact ⟨v, by simp [Plin.value, hx, e], hv⟩
  obtain ⟨v, e, v0, v1⟩ := henv
  simp only [pointIndex, e, Option.map_some]
  refine ⟨_, rfl, by positivity, ?_⟩
  generalize p.sigma / p.mu / R = a at *
  generalize (1 - |1 - uf - ((p.members.filter (fun x => x < threshold)).length : ℚ) / p.members.length|) = b at *
  nlinarith

/-- C39: the documented range [0, 1.5] for the default envelope. -/
theorem C39_default_partial (pts : List GridPt) (threshold ref : ℚ)
    (hpos : ∀ p ∈ pts, 0 < p.sigma ∧ 0 < p.mu) (hmem : ∀ p ∈ pts, p.members ≠ []) (href : EPS ≤ ref) :
    ∃ out, forecastDifficulty none pts threshold ref = .ok out ∧ out.length = pts.length ∧
      ∀ c ∈ out, ∃ v, c = some v ∧ 0 ≤ v ∧ v ≤ 3 / 2 :=
  C39_range_partial defaultEnvelope (3 / 2) (by norm_num) (by decide +kernel) rfl (by decide)
    (by decide +kernel) rfl rfl pts threshold ref (1 / 2) hpos hmem href (by norm_num) (by norm_num)

example : ∀ p ∈ [(⟨2, 10, [8, 12, 14]⟩ : GridPt), ⟨1, 20, [19, 20, 21]⟩], 0 < p.sigma ∧ 0 < p.mu := by
  decide +kernel
example : forecastDifficulty none [⟨2, 10, [8, 12, 14]⟩, ⟨1, 20, [19, 20, 21]⟩] 13 EPS =
    .ok [some (11 / 8), some (1 / 16)] := by decide +kernel

/-- C39 is false: a negative spread passes the check and gives an index far below 0. -/
theorem C39_counterexample :
    ∃ v, forecastDifficulty none [⟨-10, 10, [8, 12]⟩] 10 EPS = .ok [some v] ∧ v < -1000000 :=
  ⟨-25165821 / 4, by decide +kernel, by norm_num⟩

end Metcalcpy.Props
