/-
C51  For which derived series the stored operation is that of the name, exactly.
C64  For which aggregation runs the fractional error is that of the pooled pairs, exactly.
-/
import Verif.Props.C33_Derived
import Verif.Props.C63_Aggregated

namespace Metcalcpy.Props
open Metcalcpy Spec

/-! ### C51 -/

theorem made_name {names : List String} {name : String} (hl : 2 ≤ names.length) (h : getDerivedCurveName names = .ok name) :
    ∃ o rest, KnownOperation o ∧ name.toList = o.toList ++ '(' :: rest ∧
      ((∃ a b, names = [a, b, o]) ∨ (names.length ≠ 3 ∧ o = "DIFF")) := by
  match names, hl with
  | a :: b :: r, _ =>
    have key : ∀ o, (match operationToSign.lookup o with
        | none => Except.error PyErr.keyError
        | some sign => Except.ok (o ++ "(" ++ a ++ sign ++ b ++ ")")) = .ok name →
        KnownOperation o ∧ ∃ rest, name.toList = o.toList ++ '(' :: rest := by
      intro o ho
      split at ho
      · simp at ho
      · rename_i sign hs
        simp only [Except.ok.injEq] at ho
        refine ⟨(known_iff o).mpr ⟨sign, hs⟩, a.toList ++ (sign.toList ++ (b.toList ++ [')'])), ?_⟩
        rw [← ho]
        simp [String.toList_append]
    match r with
    | [op] =>
      obtain ⟨h1, rest, h2⟩ := key op h
      exact ⟨op, rest, h1, h2, Or.inl ⟨a, b, rfl⟩⟩
    | [] =>
      obtain ⟨h1, rest, h2⟩ := key "DIFF" h
      exact ⟨_, rest, h1, h2, Or.inr ⟨by simp, rfl⟩⟩
    | c :: d :: r =>
      obtain ⟨h1, rest, h2⟩ := key "DIFF" h
      exact ⟨_, rest, h1, h2, Or.inr ⟨by simp, rfl⟩⟩

theorem one_operation {o o' : String} (h : KnownOperation o) (h' : KnownOperation o') {r r' : List Char}
    (e : o.toList ++ '(' :: r = o'.toList ++ '(' :: r') : o = o' := by
  rcases h with rfl | rfl | rfl | rfl | rfl | rfl <;> rcases h' with rfl | rfl | rfl | rfl | rfl | rfl <;>
    first
    | rfl
    | (exfalso; revert e; simp)

/-- C51, exact extent: the operation stored for a derived series is a known one and the one its name starts with exactly when the
series is given by two names and a known operation, or by another number of entries of which the last is the word DIFF. -/
theorem C51_exactly_partial (names : List String) (hl : 2 ≤ names.length) :
    (∃ name op rest, getDerivedCurveName names = .ok name ∧ storedOperation names = some op ∧ KnownOperation op ∧
      name.toList = op.toList ++ '(' :: rest) ↔
    (∃ a b op, names = [a, b, op] ∧ KnownOperation op) ∨ (names.length ≠ 3 ∧ names.getLast? = some "DIFF") := by
  constructor
  · rintro ⟨name, op, rest, h1, h2, h3, h4⟩
    obtain ⟨o, r, ho, hn, hc⟩ := made_name hl h1
    have he : o = op := one_operation ho h3 (hn.symm.trans h4)
    subst he
    rcases hc with ⟨a, b, e⟩ | ⟨e, rfl⟩
    · exact Or.inl ⟨a, b, o, e, ho⟩
    · exact Or.inr ⟨e, h2⟩
  · rintro (⟨a, b, op, rfl, h⟩ | ⟨h, hd⟩)
    · obtain ⟨name, h1, h2, -, -⟩ := C51_recognised_partial a b op h
      obtain ⟨o, r, ho, hn, hc⟩ := made_name (by simp) h1
      rcases hc with ⟨a', b', e⟩ | ⟨e, -⟩
      · simp only [List.cons.injEq, and_true] at e
        obtain ⟨-, -, rfl⟩ := e
        exact ⟨name, op, r, h1, h2, h, hn⟩
      · simp at e
    · have hk : KnownOperation "DIFF" := Or.inl rfl
      have : ∃ name, getDerivedCurveName names = .ok name := by
        match names, hl with
        | [a, b], _ => exact ⟨_, rfl⟩
        | [a, b, c], _ => simp at h
        | a :: b :: c :: d :: r, _ => exact ⟨_, rfl⟩
      obtain ⟨name, h1⟩ := this
      obtain ⟨o, r, ho, hn, hc⟩ := made_name hl h1
      rcases hc with ⟨a', b', e⟩ | ⟨-, rfl⟩
      · rw [e] at h; simp at h
      · exact ⟨name, "DIFF", r, h1, hd, hk, hn⟩

/-- A ratio of two series, and a series whose second name is DIFF. -/
example : (∃ a b op, ["GFS RMSE", "NAM RMSE", "RATIO"] = [a, b, op] ∧ KnownOperation op) ∧
    (["GFS RMSE", "DIFF"].length ≠ 3 ∧ ["GFS RMSE", "DIFF"].getLast? = some "DIFF") :=
  ⟨⟨_, _, _, rfl, by simp [KnownOperation]⟩, by decide⟩

/-! ### C64 -/

/-- C64, exact extent: with mean forecasts of the pooled pairs that are not 0, the value of an aggregation run is the fractional
error of the pooled pairs exactly when the unweighted mean forecasts of the lines do not add up to 0 and the quotients of observations
and forecasts, with and without weights, agree to seven digits. -/
theorem C64_exactly_partial (t : Table) (bs : List (List Pair)) (D : Sl1l2Data t bs) (F O f o : ℚ)
    (hF : F = (bs.map (avg Prod.fst)).sum) (hO : O = (bs.map (avg Prod.snd)).sum)
    (hf : f = (bs.flatten.map Prod.fst).sum) (ho : o = (bs.flatten.map Prod.snd).sum) (h0 : f ≠ 0) :
    aggregated "fe" slFe t = .ok (some (roundHalfUp (meanError bs.flatten / avg Prod.fst bs.flatten) 7)) ↔
      F ≠ 0 ∧ roundHalfUp (1 - O / F) 7 = roundHalfUp (1 - o / f) 7 := by
  obtain ⟨-, -, -, -, h4⟩ := sl_prepared D "fbar" ["fbar"] rfl (by simp) (by simp)
  have hne := h4.ne'
  have hv : meanError bs.flatten / avg Prod.fst bs.flatten = 1 - o / f := by
    rw [meanError_eq]
    unfold avg
    rw [← hf, ← ho]
    field_simp
  rw [hv]
  by_cases hF0 : F = 0
  · rw [(C64_aggregated_counterexample t bs D F O hF hO).1 hF0]
    simp [hF0]
  · rw [(C64_aggregated_counterexample t bs D F O hF hO).2 hF0]
    have : (F - O) / F = 1 - O / F := by field_simp
    rw [this]
    simp [hF0]

/-- C64: lines in which the observations are the same multiple of the forecasts, on average, give the right value whatever their
numbers of pairs are. -/
theorem C64_proportional_partial (t : Table) (bs : List (List Pair)) (D : Sl1l2Data t bs) (c : ℚ)
    (hc : ∀ b ∈ bs, (b.map Prod.snd).sum = c * (b.map Prod.fst).sum)
    (hF : (bs.map (avg Prod.fst)).sum ≠ 0) (h0 : (bs.flatten.map Prod.fst).sum ≠ 0) :
    aggregated "fe" slFe t = .ok (some (roundHalfUp (meanError bs.flatten / avg Prod.fst bs.flatten) 7)) := by
  have h1 : (bs.map (avg Prod.snd)).sum = c * (bs.map (avg Prod.fst)).sum := by
    clear hF h0 D
    induction bs with
    | nil => simp
    | cons b bs ih =>
      rw [List.map_cons, List.sum_cons, List.map_cons, List.sum_cons, ih (fun x hx => hc x (by simp [hx]))]
      unfold avg
      rw [hc b (by simp)]
      ring
  have h2 : (bs.flatten.map Prod.snd).sum = c * (bs.flatten.map Prod.fst).sum := by
    clear hF h0 D h1
    induction bs with
    | nil => simp
    | cons b bs ih =>
      rw [List.flatten_cons, List.map_append, List.sum_append, List.map_append, List.sum_append, hc b (by simp),
        ih (fun x hx => hc x (by simp [hx]))]
      ring
  refine (C64_exactly_partial t bs D _ _ _ _ rfl rfl rfl rfl h0).mpr ⟨hF, ?_⟩
  rw [h1, h2, mul_div_assoc, div_self hF, mul_div_assoc, div_self h0]

/-- A line of one pair and a line of two pairs, observations half the forecasts. -/
def exHalfFe : Table :=
  { cols := ["total", "fbar", "obar", "fobar", "ffbar", "oobar"]
    rows := [[some 1, some 2, some 1, some 2, some 4, some 1], [some 2, some 5, some (5 / 2), some 13, some 26, some (13 / 2)]] }

theorem exHalfFe_data : Sl1l2Data exHalfFe [[(2, 1)], [(4, 2), (6, 3)]] where
  rows_ne := by simp [exHalfFe]
  batch_ne := by simp
  total := ⟨0, rfl, by simp, by simp [exHalfFe]⟩
  fbar := ⟨1, rfl, by simp [exHalfFe] <;> decide, by simp [exHalfFe, avg] <;> norm_num⟩
  obar := ⟨2, rfl, by simp [exHalfFe] <;> decide, by simp [exHalfFe, avg] <;> norm_num⟩
  fobar := ⟨3, rfl, by simp [exHalfFe] <;> decide, by simp [exHalfFe, avg] <;> norm_num⟩
  ffbar := ⟨4, rfl, by simp [exHalfFe] <;> decide, by simp [exHalfFe, avg] <;> norm_num⟩
  oobar := ⟨5, rfl, by simp [exHalfFe] <;> decide, by simp [exHalfFe, avg] <;> norm_num⟩

example : aggregated "fe" slFe exHalfFe = .ok (some (1 / 2)) := by
  rw [C64_proportional_partial _ _ exHalfFe_data (1 / 2) (by simp <;> norm_num) (by norm_num [avg]) (by norm_num)]
  norm_num [avg, meanError, roundHalfUp]

end Metcalcpy.Props
