/-
C48  The runs test counts runs, with the moments of the Wald-Wolfowitz statistic.
-/
import Verif.Model.Runs
import Verif.Spec.Runs
import Mathlib.Tactic.Linarith
import Mathlib.Tactic.Ring
import Mathlib.Tactic.FieldSimp
import Mathlib.Tactic.Positivity
import Mathlib.Tactic.NormNum

namespace Metcalcpy.Props
open Metcalcpy Spec

theorem blocks_cons_cons (a b : Bool) (l : List Bool) :
    blocks (a :: b :: l) = blocks (b :: l) + if a = b then 0 else 1 := by
  simp only [blocks, List.tail_cons, List.zip_cons_cons, List.countP_cons]
  by_cases h : a = b <;> simp [h] <;> omega

theorem blocks_le (l : List Bool) :
    (l.head? = some true → blocks l ≤ 2 * l.count true ∧ blocks l ≤ 2 * l.count false + 1) ∧
    (l.head? = some false → blocks l ≤ 2 * l.count true + 1 ∧ blocks l ≤ 2 * l.count false) := by
  induction l with
  | nil => simp
  | cons a l ih =>
    cases l with
    | nil => cases a <;> simp [blocks]
    | cons b l =>
      rw [blocks_cons_cons]
      revert ih
      cases a <;> cases b <;> simp [List.count_cons] <;> omega

theorem signOf_eq {t q : ℚ} (h : q ≠ t) : signOf t q = if t < q then 1 else -1 := by
  unfold signOf
  rcases lt_trichotomy q t with h1 | h1 | h1
  · rw [if_neg (by linarith), if_pos (by linarith), if_neg (by linarith)]
  · exact absurd h1 h
  · rw [if_pos (by linarith), if_pos h1]

theorem groupRuns_blocks (t : ℚ) (l : List ℚ) (h : ∀ q ∈ l, q ≠ t) :
    (groupRuns (l.map (signOf t))).length = blocks (l.map (fun q => decide (t < q))) ∧
    (∀ p ∈ groupRuns (l.map (signOf t)), p.1 = 1 ∨ p.1 = -1) ∧
    (groupRuns (l.map (signOf t))).head?.map Prod.fst = (l.map (signOf t)).head? := by
  induction l with
  | nil => simp [groupRuns, blocks]
  | cons a l ih =>
    obtain ⟨i1, i2, i3⟩ := ih (fun q hq => h q (List.mem_cons_of_mem _ hq))
    have ha : a ≠ t := h a List.mem_cons_self
    have hs := signOf_eq ha
    cases l with
    | nil =>
      refine ⟨by simp [groupRuns, blocks], ?_, by simp [groupRuns]⟩
      intro p hp
      simp only [List.map_cons, List.map_nil, groupRuns, List.mem_singleton] at hp
      subst hp
      simp only [hs]
      split <;> simp
    | cons b l =>
      have hb : b ≠ t := h b (by simp)
      have hsb := signOf_eq hb
      rw [List.map_cons]
      rw [List.map_cons (f := fun q => decide (t < q)), List.map_cons (f := fun q => decide (t < q)), blocks_cons_cons,
        ← List.map_cons (f := fun q => decide (t < q)), ← i1]
      generalize hg : groupRuns ((b :: l).map (signOf t)) = g at *
      cases g with
      | nil => simp at i3
      | cons p m =>
        obtain ⟨k, c⟩ := p
        simp only [List.head?_cons, Option.map_some, List.map_cons, Option.some.injEq] at i3
        have e : (signOf t a = k) ↔ (decide (t < a) = decide (t < b)) := by
          rw [i3, hs, hsb]
          by_cases h1 : t < a <;> by_cases h2 : t < b <;> simp [h1, h2]
        unfold groupRuns
        rw [hg]
        by_cases hk : signOf t a = k
        · simp only [hk, if_true]
          rw [if_pos (e.mp hk)]
          refine ⟨by simp, ?_, by simp [hk]⟩
          intro q hq
          rcases List.mem_cons.mp hq with rfl | hq
          · exact i2 (k, c) List.mem_cons_self
          · exact i2 q (List.mem_cons_of_mem _ hq)
        · simp only [hk, if_false]
          rw [if_neg (fun x => hk (e.mpr x))]
          refine ⟨by simp, ?_, by simp⟩
          intro q hq
          rcases List.mem_cons.mp hq with rfl | hq
          · simp only [hs]; split <;> simp
          · exact i2 q hq

theorem countP_split (g : List (ℤ × ℕ)) (h : ∀ p ∈ g, p.1 = 1 ∨ p.1 = -1) :
    g.countP (fun run => decide (run.1 = 1)) + g.countP (fun run => decide (run.1 = -1)) = g.length := by
  induction g with
  | nil => rfl
  | cons p g ih =>
    have := ih (fun q hq => h q (List.mem_cons_of_mem _ hq))
    rcases h p List.mem_cons_self with e | e <;> simp [e] <;> omega

theorem count_above (t : ℚ) (l : List ℚ) (h : ∀ q ∈ l, q ≠ t) :
    (l.map (signOf t)).countP (fun num => decide (num > 0)) = (l.map (fun q => decide (t < q))).count true ∧
    (l.map (signOf t)).countP (fun num => decide (num < 0)) = (l.map (fun q => decide (t < q))).count false := by
  induction l with
  | nil => simp
  | cons a l ih =>
    obtain ⟨i1, i2⟩ := ih (fun q hq => h q (List.mem_cons_of_mem _ hq))
    have ha : a ≠ t := h a List.mem_cons_self
    rw [List.map_cons, List.map_cons, List.countP_cons, List.countP_cons, List.count_cons, List.count_cons, i1, i2]
    rw [signOf_eq ha]
    by_cases h1 : t < a <;> simp [h1]

/-- What the test reports for a threshold `t`, in terms of the above/below sequence. -/
structure RunsMeaning (x : List Cell) (t : ℚ) (r : RunsResult) : Prop where
  runs : r.runs = blocks (aboveBelow x t)
  mean : r.mean = 1 + 2 * (aboveBelow x t).count true * (aboveBelow x t).count false / (aboveBelow x t).length
  variance : r.variance = 2 * (aboveBelow x t).count true * (aboveBelow x t).count false *
    (2 * (aboveBelow x t).count true * (aboveBelow x t).count false - (aboveBelow x t).length) /
    ((aboveBelow x t).length ^ 2 * ((aboveBelow x t).length - 1))
  statistic : r.statistic = (r.runs - r.mean) / Real.sqrt r.variance

theorem count_add (l : List Bool) : l.count true + l.count false = l.length := by
  induction l with
  | nil => rfl
  | cons a l ih => cases a <;> simp [List.count_cons] <;> omega

theorem variance_pos {a b : ℕ} (ha : 1 ≤ a) (hb : 1 ≤ b) (h : 3 ≤ a + b) :
    (0 : ℚ) < 2 * a * b * (2 * a * b - a - b) / (((a + b : ℕ) : ℚ) * ((a + b : ℕ) : ℚ) * (((a + b : ℕ) : ℚ) - 1)) := by
  have ha' : (1 : ℚ) ≤ a := by exact_mod_cast ha
  have hb' : (1 : ℚ) ≤ b := by exact_mod_cast hb
  have h' : (3 : ℚ) ≤ a + b := by exact_mod_cast h
  push_cast
  apply div_pos
  · apply mul_pos (by positivity)
    rcases Nat.lt_or_ge 1 a with h2 | h2
    · have : (2 : ℚ) ≤ a := by exact_mod_cast h2
      nlinarith
    · have : a = 1 := by omega
      subst this
      push_cast at h' ⊢
      linarith
  · apply mul_pos (by positivity); linarith

theorem variance_zero {a b : ℕ} (h : ¬ (1 ≤ a ∧ 1 ≤ b ∧ 3 ≤ a + b)) :
    (2 * a * b * (2 * a * b - a - b) / (((a + b : ℕ) : ℚ) * ((a + b : ℕ) : ℚ) * (((a + b : ℕ) : ℚ) - 1)) : ℚ) = 0 := by
  have : a = 0 ∨ b = 0 ∨ (a = 1 ∧ b = 1) := by omega
  rcases this with rfl | rfl | ⟨rfl, rfl⟩ <;> norm_num

/-- The core of the test: it succeeds exactly when there are values on both sides and at least three of them. -/
theorem runsCore_spec (phi : ℝ → ℝ) (x : List Cell) (t : ℚ) (alt : String) :
    (1 ≤ (aboveBelow x t).count true ∧ 1 ≤ (aboveBelow x t).count false ∧ 3 ≤ (aboveBelow x t).length →
      ∃ r, runsCore phi (removeNone x) t alt = .ok r ∧ RunsMeaning x t r ∧ 0 < r.variance ∧
        r.pValue = if alt = "two.sided" then 2 * min (phi r.statistic) (1 - phi r.statistic)
          else if alt = "left.sided" then phi r.statistic
          else if alt = "right.sided" then 1 - phi r.statistic else 0) ∧
    (¬ (1 ≤ (aboveBelow x t).count true ∧ 1 ≤ (aboveBelow x t).count false ∧ 3 ≤ (aboveBelow x t).length) →
      runsCore phi (removeNone x) t alt = .error .zeroDivisionError) := by
  have hk : ∀ q ∈ (removeNone x).filter (fun elem => decide (elem ≠ t)), q ≠ t := by
    intro q hq; simpa using (List.mem_filter.mp hq).2
  obtain ⟨c1, c2⟩ := count_above t _ hk
  obtain ⟨g1, g2, -⟩ := groupRuns_blocks t _ hk
  have g3 := countP_split _ g2
  have ea : ((removeNone x).filter (fun elem => decide (elem ≠ t))).map (fun q => decide (t < q)) = aboveBelow x t := rfl
  rw [ea] at c1 c2 g1
  have hl := count_add (aboveBelow x t)
  unfold runsCore
  simp only [c1, c2, g3, g1]
  generalize hL : aboveBelow x t = l at *
  generalize hA : l.count true = a at *
  generalize hB : l.count false = b at *
  constructor
  · rintro ⟨ha, hb, h3⟩
    rw [if_neg (by omega), if_neg (by
      rw [Nat.mul_eq_zero, Nat.mul_eq_zero]; omega)]
    have hv := variance_pos ha hb (by omega)
    have hv' : (0 : ℚ) < 2 * a * b * (2 * a * b - a - b) / (((a : ℚ) + b) * (a + b) * (a + b - 1)) := by
      push_cast at hv; exact hv
    push_cast
    rw [if_neg (not_lt.mpr hv'.le), if_neg hv'.ne']
    have hlq : ((l.length : ℕ) : ℚ) = a + b := by rw [← hl]; push_cast; rfl
    refine ⟨_, rfl, ⟨by rw [hL], ?_, ?_, ?_⟩, hv', by push_cast; rfl⟩
    · show (1 : ℚ) + _ = _; rw [hL, hlq, hA, hB]
    · show _ = _; rw [hL, hlq, hA, hB]; ring
    · show _ = _; push_cast; rfl
  · intro h
    by_cases h0 : a + b = 0
    · rw [if_pos h0]
    · rw [if_neg h0]
      by_cases h1 : (a + b) * (a + b) * (a + b - 1) = 0
      · rw [if_pos h1]
      · rw [if_neg h1]
        have hv := variance_zero (a := a) (b := b) (by rw [hl]; exact h)
        rw [hv, if_neg (lt_irrefl _), if_pos rfl]

/-- Value used as threshold. -/
def IsThreshold (x : List Cell) (threshold : String) (t : ℚ) : Prop :=
  (threshold = "median" ∧ pyMedian (removeNone x) = .ok t) ∨
  (threshold = "mean" ∧ x.filterMap id ≠ [] ∧ t = (x.filterMap id).sum / (x.filterMap id).length)

theorem runsTest_core (phi : ℝ → ℝ) (x : List Cell) (alt th : String) (t : ℚ)
    (halt : alt ∈ ["two.sided", "left.sided", "right.sided"]) (hx : x.filterMap id ≠ [])
    (ht : IsThreshold x th t) :
    runsTest phi x alt th = (runsCore phi (removeNone x) t alt).map some := by
  have hlen : ¬ x.length = 0 := by
    intro h; apply hx; rw [List.length_eq_zero_iff.mp h]; rfl
  have ha : ¬ (alt ≠ "two.sided" ∧ alt ≠ "left.sided" ∧ alt ≠ "right.sided") := by
    simp only [List.mem_cons, List.not_mem_nil, or_false] at halt
    rintro ⟨h1, h2, h3⟩
    rcases halt with h | h | h <;> contradiction
  unfold runsTest
  rw [if_neg ha, if_neg hlen]
  rcases ht with ⟨rfl, hm⟩ | ⟨rfl, hm, rfl⟩
  · simp only [if_true, hm, bind, Except.bind, Except.map]
  · have hm' : ¬ removeNone x = [] := hm
    simp only [show ¬ ("mean" : String) = "median" by decide, if_false, if_true, pyMean, hm', bind, Except.bind, Except.map]
    rfl

/-- C48: the test answers exactly when at least three present values differ from the threshold and lie on both
sides of it; it then reports the number of runs, the mean `1 + 2 n1 n2 / n`, the variance and the normalized
statistic.  Otherwise it raises a ZeroDivisionError. -/
theorem C48_result (phi : ℝ → ℝ) (x : List Cell) (alt th : String) (t : ℚ)
    (halt : alt ∈ ["two.sided", "left.sided", "right.sided"]) (hx : x.filterMap id ≠ [])
    (ht : IsThreshold x th t) :
    (1 ≤ (aboveBelow x t).count true ∧ 1 ≤ (aboveBelow x t).count false ∧ 3 ≤ (aboveBelow x t).length →
      ∃ r, runsTest phi x alt th = .ok (some r) ∧ RunsMeaning x t r ∧ 0 < r.variance) ∧
    (¬ (1 ≤ (aboveBelow x t).count true ∧ 1 ≤ (aboveBelow x t).count false ∧ 3 ≤ (aboveBelow x t).length) →
      runsTest phi x alt th = .error .zeroDivisionError) := by
  rw [runsTest_core phi x alt th t halt hx ht]
  obtain ⟨h1, h2⟩ := runsCore_spec phi x t alt
  constructor
  · intro h
    obtain ⟨r, hr, m, v, -⟩ := h1 h
    exact ⟨r, by rw [hr]; rfl, m, v⟩
  · intro h; rw [h2 h]; rfl

theorem runsTest_ok {phi : ℝ → ℝ} {x : List Cell} {alt th : String} {r : RunsResult}
    (h : runsTest phi x alt th = .ok (some r)) :
    alt ∈ ["two.sided", "left.sided", "right.sided"] ∧ x.filterMap id ≠ [] ∧ ∃ t, IsThreshold x th t ∧
      runsCore phi (removeNone x) t alt = .ok r := by
  unfold runsTest at h
  split at h
  · simp at h
  rename_i halt
  have halt' : alt ∈ ["two.sided", "left.sided", "right.sided"] := by
    simp only [List.mem_cons, List.not_mem_nil, or_false]
    by_contra hc
    simp only [not_or] at hc
    exact halt hc
  split at h
  · simp at h
  simp only at h
  split at h
  · rename_i hth
    rcases hm : pyMedian (removeNone x) with e | t
    · rw [hm] at h; simp [bind, Except.bind] at h
    · rw [hm] at h
      simp only [bind, Except.bind] at h
      rcases hc : runsCore phi (removeNone x) t alt with e | r'
      · rw [hc] at h; simp at h
      · rw [hc] at h
        simp only [Except.ok.injEq, Option.some.injEq] at h
        subst h
        refine ⟨halt', ?_, t, Or.inl ⟨hth, hm⟩, hc⟩
        intro hn
        have : removeNone x = [] := hn
        simp [pyMedian, this] at hm
  · split at h
    · rename_i hth
      by_cases hn : removeNone x = []
      · simp [pyMean, hn, bind, Except.bind] at h
      · simp only [pyMean, hn, if_false, bind, Except.bind] at h
        rcases hc : runsCore phi (removeNone x) (listMean (removeNone x)) alt with e | r'
        · rw [hc] at h; simp at h
        · rw [hc] at h
          simp only [Except.ok.injEq, Option.some.injEq] at h
          subst h
          exact ⟨halt', hn, _, Or.inr ⟨hth, hn, rfl⟩, hc⟩
    · split at h <;> simp at h

/-- C48: whenever the test reports a result, the number of runs is between 1 and 2 min(n1, n2) + 1, the mean is
at least 1 and the variance is positive. -/
theorem C48_bounds (phi : ℝ → ℝ) (x : List Cell) (alt th : String) (r : RunsResult)
    (h : runsTest phi x alt th = .ok (some r)) :
    ∃ t, IsThreshold x th t ∧ RunsMeaning x t r ∧ 1 ≤ r.runs ∧
      r.runs ≤ 2 * min ((aboveBelow x t).count true) ((aboveBelow x t).count false) + 1 ∧
      1 ≤ r.mean ∧ 0 < r.variance := by
  obtain ⟨halt, hx, t, ht, hc⟩ := runsTest_ok h
  obtain ⟨h1, h2⟩ := runsCore_spec phi x t alt
  by_cases hh : 1 ≤ (aboveBelow x t).count true ∧ 1 ≤ (aboveBelow x t).count false ∧ 3 ≤ (aboveBelow x t).length
  · obtain ⟨r', hr', m, v, -⟩ := h1 hh
    rw [hr'] at hc
    simp only [Except.ok.injEq] at hc
    subst hc
    refine ⟨t, ht, m, ?_, ?_, ?_, v⟩
    · rw [m.runs, blocks, if_neg (by intro e; rw [e] at hh; simp at hh)]
      omega
    · rw [m.runs]
      obtain ⟨b1, b2⟩ := blocks_le (aboveBelow x t)
      generalize hl : aboveBelow x t = l at *
      cases l with
      | nil => simp at hh
      | cons a l =>
        cases a
        · obtain ⟨q1, q2⟩ := b2 rfl; omega
        · obtain ⟨q1, q2⟩ := b1 rfl; omega
    · rw [m.mean]
      have : (0 : ℚ) ≤ 2 * (aboveBelow x t).count true * (aboveBelow x t).count false / (aboveBelow x t).length := by
        positivity
      linarith
  · rw [h2 hh] at hc; simp at hc

/-- C48: missing values play no role. -/
theorem C48_ignores_missing (phi : ℝ → ℝ) (x : List Cell) (alt th : String) (hx : x.filterMap id ≠ []) :
    runsTest phi x alt th = runsTest phi ((x.filterMap id).map some) alt th := by
  have e : removeNone ((x.filterMap id).map some) = removeNone x := by
    unfold removeNone; rw [List.filterMap_map]; simp
  have l1 : ¬ x.length = 0 := by
    intro h; apply hx; rw [List.length_eq_zero_iff.mp h]; rfl
  have l2 : ¬ ((x.filterMap id).map some).length = 0 := by
    rw [List.length_map, List.length_eq_zero_iff]; exact hx
  unfold runsTest
  rw [if_neg l1, if_neg l2, e]

/-- C48: p-values of a distribution function are probabilities, and the one-sided ones are complementary. -/
theorem C48_p_values (phi : ℝ → ℝ) (h01 : ∀ z, 0 ≤ phi z ∧ phi z ≤ 1) (x : List Cell) (th : String) :
    (∀ alt r, runsTest phi x alt th = .ok (some r) → 0 ≤ r.pValue ∧ r.pValue ≤ 1) ∧
    (∀ r r', runsTest phi x "left.sided" th = .ok (some r) → runsTest phi x "right.sided" th = .ok (some r') →
      r.pValue + r'.pValue = 1 ∧ r.statistic = r'.statistic) := by
  have key : ∀ alt r, runsTest phi x alt th = .ok (some r) →
      alt ∈ ["two.sided", "left.sided", "right.sided"] ∧ ∃ t, IsThreshold x th t ∧ RunsMeaning x t r ∧
      r.pValue = if alt = "two.sided" then 2 * min (phi r.statistic) (1 - phi r.statistic)
          else if alt = "left.sided" then phi r.statistic
          else if alt = "right.sided" then 1 - phi r.statistic else 0 := by
    intro alt r h
    obtain ⟨halt, hx, t, ht, hc⟩ := runsTest_ok h
    obtain ⟨h1, h2⟩ := runsCore_spec phi x t alt
    by_cases hh : 1 ≤ (aboveBelow x t).count true ∧ 1 ≤ (aboveBelow x t).count false ∧ 3 ≤ (aboveBelow x t).length
    · obtain ⟨r', hr', m, v, hp⟩ := h1 hh
      rw [hr'] at hc
      simp only [Except.ok.injEq] at hc
      subst hc
      exact ⟨halt, t, ht, m, hp⟩
    · rw [h2 hh] at hc; simp at hc
  constructor
  · intro alt r h
    obtain ⟨-, t, -, -, hp⟩ := key alt r h
    have := h01 r.statistic
    rw [hp]
    split
    · constructor
      · have : 0 ≤ min (phi r.statistic) (1 - phi r.statistic) := le_min this.1 (by linarith)
        linarith
      · have a := min_le_left (phi r.statistic) (1 - phi r.statistic)
        have b := min_le_right (phi r.statistic) (1 - phi r.statistic)
        linarith
    · split
      · exact this
      · split
        · constructor <;> linarith
        · constructor <;> norm_num
  · intro r r' h h'
    obtain ⟨-, t, ht, m, hp⟩ := key _ r h
    obtain ⟨-, t', ht', m', hp'⟩ := key _ r' h'
    have et : t = t' := by
      rcases ht with ⟨a, b⟩ | ⟨a, b, c⟩ <;> rcases ht' with ⟨a', b'⟩ | ⟨a', b', c'⟩
      · rw [b] at b'; simpa using b'
      · rw [a] at a'; exact absurd a' (by decide)
      · rw [a] at a'; exact absurd a' (by decide)
      · rw [c, c']
    subst et
    have e1 : r.runs = r'.runs := by rw [m.runs, m'.runs]
    have e2 : r.mean = r'.mean := by rw [m.mean, m'.mean]
    have e3 : r.variance = r'.variance := by rw [m.variance, m'.variance]
    have es : r.statistic = r'.statistic := by rw [m.statistic, m'.statistic, e1, e2, e3]
    have n1 : ¬ ("left.sided" : String) = "two.sided" := by decide
    have n2 : ¬ ("right.sided" : String) = "two.sided" := by decide
    have n3 : ¬ ("right.sided" : String) = "left.sided" := by decide
    simp only [n1, n2, n3, if_false, if_true] at hp hp'
    rw [hp, hp', es]
    exact ⟨by ring, rfl⟩

theorem count_le_of_sorted (s : List ℚ) (hs : s.Pairwise (· ≤ ·)) (i : ℕ) (hi : i < s.length) (m : ℚ)
    (hm : s[i] ≤ m) : i + 1 ≤ s.countP (fun q => decide (q ≤ m)) := by
  have h1 : (s.take (i + 1)).countP (fun q => decide (q ≤ m)) = (s.take (i + 1)).length := by
    rw [List.countP_eq_length]
    intro q hq
    obtain ⟨j, hj, rfl⟩ := List.getElem_of_mem hq
    simp only [List.length_take] at hj
    rw [List.getElem_take, decide_eq_true_eq]
    refine le_trans ?_ hm
    rcases Nat.lt_or_ge j i with h | h
    · exact List.pairwise_iff_getElem.mp hs j i (by omega) hi h
    · have : j = i := by omega
      subst this; exact le_rfl
  have h2 := (List.take_sublist (i + 1) s).countP_le (p := fun q => decide (q ≤ m))
  rw [h1, List.length_take] at h2
  omega

theorem count_ge_of_sorted (s : List ℚ) (hs : s.Pairwise (· ≤ ·)) (i : ℕ) (hi : i < s.length) (m : ℚ)
    (hm : m ≤ s[i]) : s.length - i ≤ s.countP (fun q => decide (m ≤ q)) := by
  have h1 : (s.drop i).countP (fun q => decide (m ≤ q)) = (s.drop i).length := by
    rw [List.countP_eq_length]
    intro q hq
    obtain ⟨j, hj, rfl⟩ := List.getElem_of_mem hq
    rw [List.length_drop] at hj
    rw [List.getElem_drop, decide_eq_true_eq]
    refine le_trans hm ?_
    rcases Nat.eq_zero_or_pos j with h | h
    · subst h; exact le_rfl
    · exact List.pairwise_iff_getElem.mp hs i (i + j) hi (by omega) (by omega)
  have h2 := (List.drop_sublist i s).countP_le (p := fun q => decide (m ≤ q))
  rw [h1, List.length_drop] at h2
  exact h2

/-- C48: the default threshold is a median: at least half of the present values are not above it and at least
half are not below it. -/
theorem C48_median (l : List ℚ) :
    (l ≠ [] → ∃ m, pyMedian l = .ok m) ∧
    (∀ m, pyMedian l = .ok m → l.length ≤ 2 * l.countP (fun q => decide (q ≤ m)) ∧
      l.length ≤ 2 * l.countP (fun q => decide (m ≤ q))) := by
  constructor
  · intro h; exact ⟨_, by rw [pyMedian, if_neg h]⟩
  · intro m hm
    unfold pyMedian at hm
    by_cases h : l = []
    · rw [if_pos h] at hm; simp at hm
    rw [if_neg h] at hm
    have hp := List.perm_insertionSort (· ≤ ·) l
    have hs : (l.insertionSort (· ≤ ·)).Pairwise (· ≤ ·) := List.pairwise_insertionSort (· ≤ ·) l
    have hl : 0 < l.length := List.length_pos_iff.mpr h
    rw [← hp.countP_eq, ← hp.countP_eq, ← hp.length_eq]
    rw [← hp.length_eq] at hl
    generalize l.insertionSort (· ≤ ·) = s at *
    simp only [Except.ok.injEq] at hm
    have hi : s.length / 2 < s.length := by omega
    by_cases hodd : s.length % 2 = 1
    · rw [if_pos hodd, List.getElem?_eq_getElem hi, Option.getD_some] at hm
      have a := count_le_of_sorted s hs _ hi m (le_of_eq hm)
      have b := count_ge_of_sorted s hs _ hi m (le_of_eq hm.symm)
      omega
    · have hj : s.length / 2 - 1 < s.length := by omega
      rw [if_neg hodd, List.getElem?_eq_getElem hi, List.getElem?_eq_getElem hj, Option.getD_some,
        Option.getD_some] at hm
      have hle := List.pairwise_iff_getElem.mp hs _ _ hj hi (by omega)
      have a := count_le_of_sorted s hs _ hj m (by linarith)
      have b := count_ge_of_sorted s hs _ hi m (by linarith)
      omega

/-- A case: threshold 3 (median), one missing value, runs `below above above below`. -/
def exRuns : List Cell := [some 1, some 3, none, some 7, some 8, some 2]

example : aboveBelow exRuns 3 = [false, true, true, false] ∧ blocks (aboveBelow exRuns 3) = 3 := by decide +kernel
example : pyMedian (removeNone exRuns) = .ok 3 := by decide +kernel

example (phi : ℝ → ℝ) : ∃ r, runsTest phi exRuns "two.sided" "median" = .ok (some r) ∧ r.runs = 3 ∧ r.mean = 3 ∧
    r.variance = 2 / 3 := by
  obtain ⟨r, hr, m, v⟩ := (C48_result phi exRuns "two.sided" "median" 3 (by decide) (by decide)
    (Or.inl ⟨rfl, by decide +kernel⟩)).1 (by decide +kernel)
  have hb : blocks (aboveBelow exRuns 3) = 3 := by decide +kernel
  have hc : (aboveBelow exRuns 3) = [false, true, true, false] := by decide +kernel
  refine ⟨r, hr, by rw [m.runs, hb], ?_, ?_⟩
  · rw [m.mean, hc]; norm_num
  · rw [m.variance, hc]; norm_num

end Metcalcpy.Props
