/-
C257  Whole runs with bootstrapping and without: both axes, and event equalization.
-/
import Verif.Props.C257_BootRun
import Verif.Props.C258_BootLimits

namespace Metcalcpy.Props

open Metcalcpy Spec

/-- C257 (partial), for a run with one or two axes without event equalization: both tables have the same rows in the same order, those
of the first axis before those of the second. -/
theorem C257_two_axes_partial {f : Frame} {p : AggParams} (hoff : p.eventEqual = "False" ∨ p.eventEqual = "")
    (R : ∀ a ∈ [p.axis₁, p.axis₂], BootRequest f (p.config a))
    (statOf : String → List (List Val) → Except PyErr PyNum) (etb : List PyNum → List PyNum → PyNum) (s : BootSettings)
    (draws₁ draws₂ : ℕ → ℕ → List (List ℕ)) (k : ℕ) (hm : s.method ≠ .other)
    (hkey : ∀ a ∈ [p.axis₁, p.axis₂], ∀ st ∈ a.stats, ∀ rows, rows ≠ [] → (∀ r ∈ rows, r ∈ f.rows) →
      statOf (lower st) rows ≠ .error .keyError)
    (hdraw₁ : ∀ i n, IndexMatrix n k (draws₁ i n)) (hdraw₂ : ∀ i n, IndexMatrix n k (draws₂ i n))
    (hsig : ∀ a ∈ [p.axis₁, p.axis₂], ∀ d ∈ a.derived, d.getLast? ≠ some "DIFF_SIG")
    (out : List AggOut) (outB : List BootOut) (h1 : aggRun (sortedStat statOf f) etb f p = .ok out)
    (h2 : bootRun statOf etb s draws₁ draws₂ f p = .ok outB) : List.Forall₂ SameRow out outB := by
  have hoff' : truthy (parseBool p.eventEqual) = false := by rcases hoff with h | h <;> rw [h] <;> rfl
  unfold aggRun at h1
  unfold bootRun at h2
  simp only [hoff', Bool.false_eq_true, if_false, bind, Except.bind] at h1 h2
  cases a1 : aggAxis (sortedStat statOf f) etb f (p.config p.axis₁) with
  | error e => rw [a1] at h1; simp at h1
  | ok o₁ =>
    cases b1 : bootAxis statOf etb s draws₁ f (p.config p.axis₁) with
    | error e => rw [b1] at h2; simp at h2
    | ok q₁ =>
      rw [a1] at h1
      rw [b1] at h2
      simp only at h1 h2
      have s1 := C257_same_values_partial (R p.axis₁ (by simp)) statOf etb s draws₁ k hm (hkey p.axis₁ (by simp)) hdraw₁
        (hsig p.axis₁ (by simp)) _ _ a1 b1
      split_ifs at h1 h2 with hx
      · simp only [Except.ok.injEq] at h1 h2
        rw [← h1, ← h2]
        exact s1
      · cases a2 : aggAxis (sortedStat statOf f) etb f (p.config p.axis₂) with
        | error e => rw [a2] at h1; simp at h1
        | ok o₂ =>
          cases b2 : bootAxis statOf etb s draws₂ f (p.config p.axis₂) with
          | error e => rw [b2] at h2; simp at h2
          | ok q₂ =>
            rw [a2] at h1
            rw [b2] at h2
            simp only [Except.ok.injEq] at h1 h2
            rw [← h1, ← h2]
            exact forall₂_append' s1 (C257_same_values_partial (R p.axis₂ (by simp)) statOf etb s draws₂ k hm
              (hkey p.axis₂ (by simp)) hdraw₂ (hsig p.axis₂ (by simp)) _ _ a2 b2)

/-- C257 (partial), for a one-axis run with event equalization: both tables have the same rows. -/
theorem C257_equalized_partial {f : Frame} {p : AggParams} {init : List (String × List String)} {sv : String × List String}
    {parts : String → List String} {fix : List (String × List String)} {fv : String} {sts : List String}
    {rest : List (String × List String)} (R : OneAxisRun f p init sv parts fix fv sts rest)
    (statOf : String → List (List Val) → Except PyErr PyNum) (etb : List PyNum → List PyNum → PyNum) (s : BootSettings)
    (draws₁ draws₂ : ℕ → ℕ → List (List ℕ)) (k : ℕ) (hm : s.method ≠ .other)
    (hkey : ∀ st ∈ p.axis₁.stats, ∀ rows, rows ≠ [] → (∀ r ∈ rows, r ∈ f.rows) → statOf (lower st) rows ≠ .error .keyError)
    (hdraw : ∀ i n, IndexMatrix n k (draws₁ i n)) (hsig : ∀ d ∈ p.axis₁.derived, d.getLast? ≠ some "DIFF_SIG")
    (out : List AggOut) (outB : List BootOut) (h1 : aggRun (sortedStat statOf f) etb f p = .ok out)
    (h2 : bootRun statOf etb s draws₁ draws₂ f p = .ok outB) : List.Forall₂ SameRow out outB := by
  obtain ⟨key, hk'⟩ := C01_case_key_exists R.input
  have hg := equalize_ok R key (fun r hr => (hk' r hr _).mpr rfl)
  generalize hG : (p.axis₁.fcstVarVal.flatMap (fun q => q.2.map (fun s => (q.1, s)))).flatMap
      (keptRows f sv ((init ++ [sv]).map (fun x => (x.1, x.2.flatMap parts)) ++ fix) key) = G at hg
  have hsub : ∀ r ∈ G, r ∈ f.rows := by
    intro r hr
    rw [← hG] at hr
    unfold keptRows at hr
    simp only [List.mem_flatMap, List.mem_filter] at hr
    obtain ⟨_, _, h3⟩ := hr
    exact h3.1.1
  obtain ⟨hreq, -⟩ := run_request R hsub
  have ht : truthy (parseBool p.eventEqual) = true := by rw [R.on]; rfl
  unfold aggRun at h1
  unfold bootRun at h2
  rw [ht, if_pos rfl, hg, R.second] at h1 h2
  simp only [bind, Except.bind, List.isEmpty_nil, if_true] at h1 h2
  cases a1 : aggAxis (sortedStat statOf f) etb ⟨f.cols, G⟩ (p.config p.axis₁) with
  | error e => rw [a1] at h1; simp at h1
  | ok o₁ =>
    cases b1 : bootAxis statOf etb s draws₁ ⟨f.cols, G⟩ (p.config p.axis₁) with
    | error e => rw [b1] at h2; simp at h2
    | ok q₁ =>
      rw [a1] at h1
      rw [b1] at h2
      simp only [Except.ok.injEq] at h1 h2
      rw [← h1, ← h2]
      exact C257_same_values_partial hreq statOf etb s draws₁ k hm
        (fun st hst rows n1 n2 => hkey st hst rows n1 (fun r hr => hsub r (n2 r hr))) hdraw hsig _ _ a1 b1

/-! ### Example -/

/-- Model B on the first axis, model A on the second. -/
def exBothAxes : AggParams where
  eventEqual := "False"
  indyVar := "fcst_lead"
  indyVals := ["12"]
  fixed := []
  axis₁ := ⟨[("model", ["B"])], ["ME"], [], [("TMP", ["ME"])]⟩
  axis₂ := ⟨[("model", ["A"])], ["ME"], [], [("TMP", ["ME"])]⟩

theorem exBothAxes_request : ∀ a ∈ [exBothAxes.axis₁, exBothAxes.axis₂], BootRequest bootTable (exBothAxes.config a) := by
  intro a ha
  have hv : ∀ v ∈ ["A", "B", "12", "ME"], ∃ vals, StandsFor v vals := by
    intro v hv
    simp only [List.mem_cons, List.not_mem_nil, or_false] at hv
    rcases hv with rfl | rfl | rfl | rfl <;> exact ⟨_, plain_standsFor (by decide) (by decide)⟩
  simp only [List.mem_cons, List.not_mem_nil, or_false] at ha
  rcases ha with rfl | rfl
  all_goals
    refine ⟨by unfold FrameWF; decide, by unfold FieldsDistinct; decide, ?_, ?_⟩
    · intro q hq v h
      refine hv v ?_
      revert q v
      decide
    · intro s hs
      obtain rfl : s = "ME" := by simpa [exBothAxes, AggParams.config] using hs
      exact ⟨by decide, by decide, plainText_of (by decide) (by decide) (by decide)⟩

theorem exBothAxes_once : aggRun (sortedStat meanOfX bootTable) (fun _ _ => .none) bootTable exBothAxes = .ok
    [⟨["B", "12", "ME"], some "TMP", .num (31 / 6), 2⟩, ⟨["A", "12", "ME"], some "TMP", .num (5 / 2), 2⟩] := by
  decide +kernel

theorem exBothAxes_many : bootRun meanOfX (fun _ _ => .none) ⟨1 / 2, .perc, false⟩ threeDraws threeDraws bootTable exBothAxes = .ok
    [⟨["B", "12", "ME"], some "TMP", .num (31 / 6), some (23 / 40), some (1171 / 120), 2⟩,
     ⟨["A", "12", "ME"], some "TMP", .num (5 / 2), some (43 / 40), some (157 / 40), 2⟩] := by
  decide +kernel

example := C257_two_axes_partial (Or.inl rfl) exBothAxes_request meanOfX (fun _ _ => .none) ⟨1 / 2, .perc, false⟩ threeDraws
  threeDraws 3 (by decide) (by intro a _ st _ rows _ _; simp [meanOfX]) threeDraws_ok threeDraws_ok (by decide) _ _
  exBothAxes_once exBothAxes_many

theorem exRun_both :
    aggRun (sortedStat countStat exRunFrame) (fun _ _ => .none) exRunFrame exRunParams =
      .ok [⟨["A", "6", "ME"], some "TMP", .num 2, 2⟩, ⟨["B", "6", "ME"], some "TMP", .num 2, 2⟩] ∧
    bootRun countStat (fun _ _ => .none) ⟨1 / 2, .perc, false⟩ threeDraws threeDraws exRunFrame exRunParams =
      .ok [⟨["A", "6", "ME"], some "TMP", .num 2, none, none, 2⟩, ⟨["B", "6", "ME"], some "TMP", .num 2, none, none, 2⟩] := by
  constructor <;> decide +kernel

example := C257_equalized_partial exRun_input countStat (fun _ _ => .none) ⟨1 / 2, .perc, false⟩ threeDraws threeDraws 3
  (by decide) (by intro st _ rows _ _; simp [countStat]) threeDraws_ok (by decide) _ _ exRun_both.1 exRun_both.2

end Metcalcpy.Props
