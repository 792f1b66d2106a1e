/-
C33  Derived curve values are element-wise and refuse mismatched input.
C34  Difference-significance sign adjustment only changes the sign.
C51  Derived series names are always recognised as derived (operation lookup false for two names).
C53  Number-like strings are classified uniquely.
-/
import Verif.Model.Derived
import Verif.Spec.Derived
import Verif.Lemmas.IntText
import Mathlib.Tactic.Linarith
import Mathlib.Data.List.Forall2
import Mathlib.Data.List.Zip

namespace Metcalcpy.Props
open Metcalcpy Spec

/-! ### C33 -/

/-- C33: no value when a list is missing, has a missing element, or the lengths differ. -/
theorem C33_refused {β : Type} (etb : List PyNum → List PyNum → β) (op : String) :
    (∀ v, calcDerivedCurveValue etb none v op = none) ∧
    (∀ v, calcDerivedCurveValue etb v none op = none) ∧
    (∀ v1 v2, PyNum.none ∈ v1 → calcDerivedCurveValue etb (some v1) (some v2) op = none) ∧
    (∀ v1 v2, PyNum.none ∈ v2 → calcDerivedCurveValue etb (some v1) (some v2) op = none) ∧
    (∀ v1 v2 : List PyNum, v1.length ≠ v2.length →
      calcDerivedCurveValue etb (some v1) (some v2) op = none) := by
  refine ⟨?_, ?_, ?_, ?_, ?_⟩
  · intro v; rfl
  · intro v; cases v <;> rfl
  · intro v1 v2 h; simp [calcDerivedCurveValue, h]
  · intro v1 v2 h; simp [calcDerivedCurveValue, h]
  · intro v1 v2 h; simp [calcDerivedCurveValue, h]

theorem none_not_mem_map (l : List ℚ) : PyNum.none ∉ l.map PyNum.num := by simp

theorem zipWith_arith (f : ℚ → ℚ → ℚ) (a b : List ℚ) :
    List.zipWith (PyNum.arith f) (a.map .num) (b.map .num) = (List.zipWith f a b).map .num := by
  induction a generalizing b with
  | nil => simp
  | cons x a ih => cases b with
    | nil => simp
    | cons y b => simp [PyNum.arith, ih]

/-- C33: for complete lists of equal length the difference and the (single) copy are element-wise; the
ratio and the skill score as well, unless a divisor is zero, when nothing is returned. -/
theorem C33_elementwise {β : Type} (etb : List PyNum → List PyNum → β) (a b : List ℚ)
    (h : a.length = b.length) :
    (∀ op, op = "DIFF" ∨ op = "DIFF_SIG" →
      calcDerivedCurveValue etb (some (a.map .num)) (some (b.map .num)) op =
        some (.inl ((List.zipWith (fun x y => x - y) a b).map .num))) ∧
    ((0 : ℚ) ∉ b → calcDerivedCurveValue etb (some (a.map .num)) (some (b.map .num)) "RATIO" =
        some (.inl ((List.zipWith (fun x y => x / y) a b).map .num))) ∧
    ((0 : ℚ) ∈ b → calcDerivedCurveValue etb (some (a.map .num)) (some (b.map .num)) "RATIO" = none) ∧
    ((0 : ℚ) ∉ a → calcDerivedCurveValue etb (some (a.map .num)) (some (b.map .num)) "SS" =
        some (.inl ((List.zipWith (fun x y => (x - y) / x) a b).map .num))) ∧
    ((0 : ℚ) ∈ a → calcDerivedCurveValue etb (some (a.map .num)) (some (b.map .num)) "SS" = none) ∧
    calcDerivedCurveValue etb (some (a.map .num)) (some (b.map .num)) "SINGLE" =
      some (.inl (a.map .num)) ∧
    (∀ op, ¬ KnownOperation op →
      calcDerivedCurveValue etb (some (a.map .num)) (some (b.map .num)) op = none) := by
  refine ⟨?_, ?_, ?_, ?_, ?_, ?_, ?_⟩
  · intro op hop
    simp [calcDerivedCurveValue, h, hop, PyNum.arith]
  · intro h0
    simp [calcDerivedCurveValue, h, h0, PyNum.arith]
  · intro h0
    simp [calcDerivedCurveValue, h, h0]
  · intro h0
    simp [calcDerivedCurveValue, h, h0, PyNum.arith]
  · intro h0
    simp [calcDerivedCurveValue, h, h0]
  · simp [calcDerivedCurveValue, h]
  · intro op hop
    simp only [KnownOperation, not_or] at hop
    obtain ⟨h1, h2, h3, h4, h5, h6⟩ := hop
    simp [calcDerivedCurveValue, h, h1, h2, h3, h4, h5, h6]

/-- C33: element-wise also with NaN elements: position i of the difference depends on position i only,
and the result has the common length. -/
theorem C33_positions {β : Type} (etb : List PyNum → List PyNum → β) (v1 v2 r : List PyNum) (op : String)
    (h : calcDerivedCurveValue etb (some v1) (some v2) op = some (.inl r)) :
    r.length = v1.length ∧ r.length = v2.length ∧
    (op = "DIFF" ∨ op = "DIFF_SIG" → ∀ (i : ℕ) (x y : ℚ), v1[i]? = some (.num x) → v2[i]? = some (.num y) →
      r[i]? = some (.num (x - y))) ∧
    (op = "RATIO" → ∀ (i : ℕ) (x y : ℚ), v1[i]? = some (.num x) → v2[i]? = some (.num y) →
      y ≠ 0 ∧ r[i]? = some (.num (x / y))) ∧
    (op = "SS" → ∀ (i : ℕ) (x y : ℚ), v1[i]? = some (.num x) → v2[i]? = some (.num y) →
      x ≠ 0 ∧ r[i]? = some (.num ((x - y) / x))) := by
  have hz : ∀ (f : ℚ → ℚ → ℚ) (i : ℕ) (x y : ℚ), v1[i]? = some (.num x) → v2[i]? = some (.num y) →
      (List.zipWith (PyNum.arith f) v1 v2)[i]? = some (.num (f x y)) := by
    intro f i x y h1 h2
    simp [List.getElem?_zipWith, h1, h2, PyNum.arith]
  simp only [calcDerivedCurveValue] at h
  split at h
  · simp at h
  next hc =>
  have hlen : v1.length = v2.length := by
    by_contra hne
    exact hc (by simp [hne])
  split at h
  next hop =>
    simp only [Option.some.injEq, Sum.inl.injEq] at h
    subst h
    refine ⟨by simp [hlen], by simp [hlen], fun _ => hz _, ?_, ?_⟩ <;>
      · rintro rfl; simp at hop
  next hop =>
  refine ⟨?_, ?_, fun hp => absurd hp hop, ?_⟩
  · split at h
    · split at h
      · simp at h
      · simp only [Option.some.injEq, Sum.inl.injEq] at h; subst h; simp [hlen]
    · split at h
      · split at h
        · simp at h
        · simp only [Option.some.injEq, Sum.inl.injEq] at h; subst h; simp [hlen]
      · split at h
        · simp only [Option.some.injEq, Sum.inl.injEq] at h; subst h; rfl
        · split at h <;> simp at h
  · split at h
    · split at h
      · simp at h
      · simp only [Option.some.injEq, Sum.inl.injEq] at h; subst h; simp [hlen]
    · split at h
      · split at h
        · simp at h
        · simp only [Option.some.injEq, Sum.inl.injEq] at h; subst h; simp [hlen]
      · split at h
        · simp only [Option.some.injEq, Sum.inl.injEq] at h; subst h; exact hlen
        · split at h <;> simp at h
  · constructor
    · rintro rfl i x y h1 h2
      simp only [if_true] at h
      split at h
      · simp at h
      next h0 =>
      simp only [Option.some.injEq, Sum.inl.injEq] at h
      refine ⟨?_, by rw [← h]; exact hz _ i x y h1 h2⟩
      rintro rfl
      exact h0 (by simpa using List.mem_of_getElem? h2)
    · rintro rfl i x y h1 h2
      rw [if_neg (by decide)] at h
      simp only [if_true] at h
      split at h
      · simp at h
      next h0 =>
      simp only [Option.some.injEq, Sum.inl.injEq] at h
      refine ⟨?_, by rw [← h]; exact hz _ i x y h1 h2⟩
      rintro rfl
      exact h0 (by simpa using List.mem_of_getElem? h1)

example : calcDerivedCurveValue (fun _ _ => ()) (some [.num 4, .num 6]) (some [.num 2, .num 3]) "RATIO" =
    some (.inl [.num 2, .num 2]) := by decide +kernel
example : calcDerivedCurveValue (fun _ _ => ()) (some [.num 4, .nan]) (some [.num 2, .num 3]) "DIFF" =
    some (.inl [.num 2, .nan]) := by decide +kernel

/-! ### C34 -/

/-- C34: nothing for descriptive statistics, otherwise plus or minus the p-value, with the minus exactly
when the first mean is farther from the perfect score. -/
theorem C34_sign {K : Type*} [Field K] [LinearOrder K] [IsStrictOrderedRing K] (m1 m2 p : K) (s : String) :
    (PerfectScore (upper s) none → perfectScoreAdjustment m1 m2 s p = none) ∧
    (∀ best : ℚ, PerfectScore (upper s) (some best) →
      perfectScoreAdjustment m1 m2 s p = some (if |m1 - (best : K)| > |m2 - (best : K)| then -p else p)) := by
  constructor
  · rintro ⟨h⟩
    have : upper s ∈ naPerfScoreStats := by
      generalize upper s = u at h
      simp only [List.mem_cons, List.not_mem_nil, or_false] at h
      unfold naPerfScoreStats
      rcases h with rfl | rfl | rfl | rfl | rfl | rfl | rfl | rfl | rfl | rfl | rfl | rfl | rfl | rfl |
        rfl | rfl | rfl | rfl | rfl | rfl | rfl | rfl <;> decide
    simp [perfectScoreAdjustment, this]
  · intro best hb
    unfold perfectScoreAdjustment
    generalize upper s = u at hb ⊢
    cases hb with
    | error h =>
      have key : ∀ u ∈ ["POFD", "FAR", "ESTDEV", "MAE", "MSE", "BCMSE", "RMSE", "BCRMSE", "ME", "ME2", "MAD",
      "EIQR", "E10", "E25", "E50", "E75", "E90", "VL1L2_MSE", "VL1L2_RMSE", "VL1L2_RMSVE", "VL1L2_SPEED_ERR",
      "PSTD_BRIER", "PSTD_RELIABILITY", "NBR_FBS", "NBR_POFD", "NBR_FAR", "CRPS", "ECNT_CRPS", "ECNT_ME",
      "ECNT_RMSE", "ECNT_MAE", "ECNT_MAE_OERR", "ECNT_ME_GE_OBS", "ECNT_ME_LT_OBS"],
          u ∉ naPerfScoreStats ∧ u ∈ zeroPerfScoreStats ∧ u ∉ onePerfScoreStats := by decide
      obtain ⟨k1, k2, k3⟩ := key u h
      rw [if_neg k1]
      simp only [k2, k3, true_and, false_and, if_false, Rat.cast_zero, sub_zero, mul_neg, mul_one]
      split <;> rfl
    | skill h =>
      have key : ∀ u ∈ ["ACC", "FBIAS", "PODY", "PODN", "CSI", "GSS", "HK", "HSS", "ORSS", "EDS", "SEDS", "EDI",
      "SEDI", "BAGSS", "PR_CORR", "SP_CORR", "KT_CORR", "MBIAS", "ANOM_CORR", "ANOM_CORR_RAW", "VL1L2_CORR",
      "PSTD_BSS", "PSTD_BSS_SMPL", "PSTD_ROC_AUC", "NBR_FSS", "NBR_AFSS", "VAL1L2_ANOM_CORR", "NBR_ACC",
      "NBR_FBIAS", "NBR_PODY", "NBR_PODN", "NBR_CSI", "NBR_GSS", "NBR_HK", "NBR_HSS", "ECNT_BIAS_RATIO"],
          u ∉ naPerfScoreStats ∧ u ∉ zeroPerfScoreStats ∧ u ∈ onePerfScoreStats := by decide
      obtain ⟨k1, k2, k3⟩ := key u h
      rw [if_neg k1]
      simp only [k2, k3, true_and, false_and, if_false, Rat.cast_one, mul_neg, mul_one]
      split <;> rfl

/-- C34: in every case the magnitude of the p-value is unchanged. -/
theorem C34_magnitude {K : Type*} [Field K] [LinearOrder K] [IsStrictOrderedRing K] (m1 m2 p r : K) (s : String)
    (h : perfectScoreAdjustment m1 m2 s p = some r) :
    |r| = |p| := by
  unfold perfectScoreAdjustment at h
  split at h
  · simp at h
  · split at h
    · simp at h; rw [← h, abs_neg]
    · split at h
      · simp at h; rw [← h, abs_neg]
      · simp at h; rw [h]

example : PerfectScore (upper "rmse") (some 0) := PerfectScore.error (by decide)
example : perfectScoreAdjustment (3 : ℚ) 2 "rmse" (1/20) = some (-1/20) := by decide +kernel

/-! ### C51 -/

theorem startsWith_iff (s p : String) : startsWith s p = true ↔ p.toList <+: s.toList := by
  simp [startsWith, List.isPrefixOf_iff_prefix]

theorem known_iff (op : String) : KnownOperation op ↔ ∃ sign, operationToSign.lookup op = some sign := by
  constructor
  · rintro (rfl | rfl | rfl | rfl | rfl | rfl) <;> exact ⟨_, rfl⟩
  · rintro ⟨sign, h⟩
    simp only [operationToSign, List.lookup_cons] at h
    unfold KnownOperation
    split at h
    · next h1 => simp at h1; simp [h1]
    · split at h
      · next h1 => simp at h1; simp [h1]
      · split at h
        · next h1 => simp at h1; simp [h1]
        · split at h
          · next h1 => simp at h1; simp [h1]
          · split at h
            · next h1 => simp at h1; simp [h1]
            · split at h
              · next h1 => simp at h1; simp [h1]
              · simp at h

/-- C51: a name made with a known operation is recognised as derived wherever it stands in the point, it
starts with its own operation, and with no other one. -/
theorem C51_recognised_partial (a b op : String) (h : KnownOperation op) :
    ∃ name, getDerivedCurveName [a, b, op] = .ok name ∧ storedOperation [a, b, op] = some op ∧
      (∀ before after, isDerivedPoint (some (before ++ name :: after)) = true) ∧
      (∀ op', KnownOperation op' → (startsWith name (op' ++ "(") = true ∨ startsWith name (op' ++ " (") = true) →
        op' = op) := by
  obtain ⟨sign, hs⟩ := (known_iff op).mp h
  refine ⟨op ++ "(" ++ a ++ sign ++ b ++ ")", by simp [getDerivedCurveName, hs], rfl, ?_, ?_⟩
  · intro before after
    simp only [isDerivedPoint, List.any_eq_true]
    have hmem : (op, sign) ∈ operationToSign := by
      rcases h with rfl | rfl | rfl | rfl | rfl | rfl <;>
        (simp [operationToSign, List.lookup] at hs; subst hs; decide)
    refine ⟨_, hmem, op ++ "(" ++ a ++ sign ++ b ++ ")", by simp, ?_⟩
    rw [Bool.or_eq_true]
    left
    rw [startsWith_iff]
    simp [String.toList_append]
  · intro op' h' hst
    simp only [startsWith_iff, String.toList_append] at hst
    rcases h with rfl | rfl | rfl | rfl | rfl | rfl <;>
      rcases h' with rfl | rfl | rfl | rfl | rfl | rfl <;>
      first
      | rfl
      | (exfalso; revert hst; simp)

/-- C51: a point is recognised as derived exactly when one of its components starts with a known operation and an
opening parenthesis (with or without a blank between them). -/
theorem C51_point_iff (point : Option (List String)) :
    isDerivedPoint point = true ↔ ∃ comps, point = some comps ∧ ∃ c ∈ comps, ∃ op, KnownOperation op ∧
      ∃ rest, c.toList = op.toList ++ '(' :: rest ∨ c.toList = op.toList ++ ' ' :: '(' :: rest := by
  cases point with
  | none => simp [isDerivedPoint]
  | some comps =>
    simp only [isDerivedPoint, List.any_eq_true, Option.some.injEq, exists_eq_left', Bool.or_eq_true, startsWith_iff,
      String.toList_append]
    constructor
    · rintro ⟨⟨op, sign⟩, hop, c, hc, h⟩
      refine ⟨c, hc, op, ?_, ?_⟩
      · revert hop; simp only [operationToSign, KnownOperation, List.mem_cons, Prod.mk.injEq, List.not_mem_nil]
        tauto
      · rcases h with ⟨r, h⟩ | ⟨r, h⟩
        · exact ⟨r, Or.inl (by rw [← h]; simp)⟩
        · exact ⟨r, Or.inr (by rw [← h]; simp)⟩
    · rintro ⟨c, hc, op, hop, rest, h⟩
      obtain ⟨sign, hs⟩ := (known_iff op).mp hop
      have hmem : (op, sign) ∈ operationToSign := by
        rcases hop with rfl | rfl | rfl | rfl | rfl | rfl <;>
          (simp [operationToSign, List.lookup] at hs; subst hs; decide)
      refine ⟨(op, sign), hmem, c, hc, ?_⟩
      rcases h with h | h
      · exact Or.inl ⟨rest, by rw [h]; simp⟩
      · exact Or.inr ⟨rest, by rw [h]; simp⟩

/-- C51: an unknown operation is refused (KeyError). -/
theorem C51_unknown_operation (a b op : String) (h : ¬ KnownOperation op) :
    getDerivedCurveName [a, b, op] = .error .keyError := by
  have : operationToSign.lookup op = none := by
    cases hl : operationToSign.lookup op with
    | none => rfl
    | some s => exact absurd ((known_iff op).mpr ⟨s, hl⟩) h
  simp [getDerivedCurveName, this]

/-- C51 is false for a derived series given by two names only: its curve is called DIFF(...), but the
operation that is stored (and executed) for it is the name of the second series. -/
theorem C51_operation_counterexample :
    ∃ a b name, getDerivedCurveName [a, b] = .ok name ∧ startsWith name "DIFF(" = true ∧
      ¬ ∃ op, storedOperation [a, b] = some op ∧ KnownOperation op :=
  ⟨"GFS RMSE", "NAM RMSE", _, rfl, by decide, by
    rintro ⟨op, h, hk⟩
    simp [storedOperation] at h
    subst h
    revert hk; unfold KnownOperation; decide⟩

example : getDerivedCurveName ["GFS TMP ME", "NAM TMP ME", "SS"] = .ok "SS(GFS TMP ME and NAM TMP ME)" :=
  rfl

/-! ### C53 -/

theorem mem_dropWhile {p : Char → Bool} {l : List Char} {c : Char} (hc : c ∈ l) (hp : p c = false) :
    c ∈ l.dropWhile p := by
  induction l with
  | nil => simp at hc
  | cons a l ih =>
    rw [List.dropWhile_cons]
    split
    · next h =>
      rcases List.mem_cons.mp hc with rfl | h'
      · simp [hp] at h
      · exact ih h'
    · exact hc

theorem mem_stripBlank {cs : List Char} {c : Char} (hc : c ∈ cs) (hb : isBlank c = false) :
    c ∈ stripBlank cs := by
  unfold stripBlank
  rw [List.mem_reverse]
  apply mem_dropWhile _ hb
  rw [List.mem_reverse]
  exact mem_dropWhile hc hb

theorem parseDigits_no_dot (acc n : ℕ) (cs : List Char) (h : parseDigits acc cs = some n) : '.' ∉ cs := by
  fun_induction parseDigits acc cs with
  | case1 => simp
  | case2 acc c cs hd ih =>
    intro hm
    rcases List.mem_cons.mp hm with rfl | hm
    · revert hd; decide
    · exact ih h hm
  | case3 => simp at h
  | case4 acc c hd hu d ds hd2 ih =>
    intro hm
    rcases List.mem_cons.mp hm with rfl | hm
    · revert hu; decide
    · rcases List.mem_cons.mp hm with rfl | hm
      · revert hd2; decide
      · exact ih h hm
  | case5 => simp at h
  | case6 => simp at h

theorem parseNat_no_dot (n : ℕ) (cs : List Char) (h : parseNat cs = some n) : '.' ∉ cs := by
  cases cs with
  | nil => simp
  | cons c cs =>
    simp only [parseNat] at h
    split at h
    · next hd =>
      intro hm
      rcases List.mem_cons.mp hm with rfl | hm
      · revert hd; decide
      · exact parseDigits_no_dot _ _ _ h hm
    · simp at h

/-- A string accepted by `int` has no decimal point. -/
theorem pyInt_no_dot (s : String) (h : (pyInt? s).isSome) : '.' ∉ s.toList := by
  intro hm
  have hm' := mem_stripBlank hm (by decide)
  unfold pyInt? at h
  split at h
  · next cs he =>
    obtain ⟨z, hz⟩ := Option.isSome_iff_exists.mp h
    obtain ⟨n, hn, -⟩ := Option.map_eq_some_iff.mp hz
    rw [he] at hm'
    exact parseNat_no_dot n cs hn (by simpa using hm')
  · next cs he =>
    obtain ⟨z, hz⟩ := Option.isSome_iff_exists.mp h
    obtain ⟨n, hn, -⟩ := Option.map_eq_some_iff.mp hz
    rw [he] at hm'
    exact parseNat_no_dot n cs hn (by simpa using hm')
  · obtain ⟨z, hz⟩ := Option.isSome_iff_exists.mp h
    obtain ⟨n, hn, -⟩ := Option.map_eq_some_iff.mp hz
    exact parseNat_no_dot n _ hn hm'

/-- C53: no string is both an integer and strictly a float. -/
theorem C53_exclusive (s : String) :
    ¬ (isStringInteger s = true ∧ isStringStrictlyFloat (some s) = true) := by
  rintro ⟨h1, h2⟩
  apply pyInt_no_dot s h1
  simp only [isStringStrictlyFloat, Bool.and_eq_true] at h2
  have := h2.1
  split at this
  · next cs he => rw [he]; simp at this; simp [this]
  · simpa using this

theorem removeFirstDot_split (cs : List Char) (h : '.' ∈ cs) :
    ∃ a b, cs = a ++ '.' :: b ∧ '.' ∉ a ∧ removeFirstDot cs = a ++ b := by
  induction cs with
  | nil => simp at h
  | cons c cs ih =>
    by_cases hc : c = '.'
    · subst hc; exact ⟨[], cs, by simp, by simp, by simp [removeFirstDot]⟩
    · have : '.' ∈ cs := by
        rcases List.mem_cons.mp h with h | h
        · exact absurd h.symm hc
        · exact h
      obtain ⟨a, b, h1, h2, h3⟩ := ih this
      refine ⟨c :: a, b, by simp [h1], ?_, by simp [removeFirstDot, hc, h3]⟩
      simp only [List.mem_cons, not_or]
      exact ⟨Ne.symm hc, h2⟩

/-- C53: the integer strings are exactly: blanks, an optional sign, digits with at most one underscore between two of
them, blanks. -/
theorem C53_integer_form (s : String) : isStringInteger s = true ↔ ∃ z, IsIntText s z := by
  rw [isStringInteger, Option.isSome_iff_exists]
  simp only [pyInt?_iff]

/-- C53: the strictly-float strings are exactly: an optional minus, digits, a point, digits, with at least
one digit. -/
theorem C53_float_form (s : String) :
    isStringStrictlyFloat (some s) = true ↔
      ∃ (a b : List Char), (s.toList = a ++ '.' :: b ∨ s.toList = '-' :: (a ++ '.' :: b)) ∧
        (∀ c ∈ a ++ b, c.isDigit = true) ∧ a ++ b ≠ [] := by
  have key : ∀ cs : List Char, (cs.contains '.' && (!(removeFirstDot cs).isEmpty &&
      (removeFirstDot cs).all Char.isDigit)) = true ↔
      ∃ a b, cs = a ++ '.' :: b ∧ (∀ c ∈ a ++ b, c.isDigit = true) ∧ a ++ b ≠ [] := by
    intro cs
    constructor
    · intro h
      simp only [Bool.and_eq_true, List.contains_iff_mem, List.all_eq_true] at h
      obtain ⟨h1, h2, h3⟩ := h
      obtain ⟨a, b, e1, e2, e3⟩ := removeFirstDot_split cs h1
      rw [e3] at h2 h3
      refine ⟨a, b, e1, h3, ?_⟩
      intro he; rw [he] at h2; simp at h2
    · rintro ⟨a, b, e1, h3, h2⟩
      have hna : '.' ∉ a := fun hm => by
        have := h3 '.' (by simp [hm]); revert this; decide
      have hr : removeFirstDot cs = a ++ b := by
        rw [e1]; clear e1 h3 h2
        induction a with
        | nil => simp [removeFirstDot]
        | cons c a ih =>
          simp only [List.mem_cons, not_or] at hna
          simp [removeFirstDot, Ne.symm hna.1, ih hna.2]
      rw [hr]
      simp only [Bool.and_eq_true, List.contains_iff_mem, List.all_eq_true]
      refine ⟨by simp [e1], ?_, h3⟩
      cases hab : a ++ b with
      | nil => exact absurd hab h2
      | cons => simp
  simp only [isStringStrictlyFloat]
  split
  · next cs he =>
    rw [key cs]
    constructor
    · rintro ⟨a, b, h1, h2⟩; exact ⟨a, b, Or.inr (by rw [he, h1]), h2⟩
    · rintro ⟨a, b, h1 | h1, h2⟩
      · rw [he] at h1
        cases a with
        | nil => simp at h1
        | cons c a =>
          simp at h1
          have := h2.1 c (by simp)
          rw [← h1.1] at this; exact absurd this (by decide)
      · rw [he] at h1; simp at h1; exact ⟨a, b, h1, h2⟩
  · next hne =>
    rw [key]
    constructor
    · rintro ⟨a, b, h1, h2⟩; exact ⟨a, b, Or.inl h1, h2⟩
    · rintro ⟨a, b, h1 | h1, h2⟩
      · exact ⟨a, b, h1, h2⟩
      · exact absurd h1 (hne _)

example : isStringInteger "12" = true ∧ isStringStrictlyFloat (some "-1.5") = true := by decide

end Metcalcpy.Props
