/-
C84  Equalization of two axes in an aggregation run: each axis with its own variables.
-/
import Verif.Model.AggRun
import Verif.Props.C54_EqualizeAxis

namespace Metcalcpy.Props
open Metcalcpy Spec

open Classical in
/-- C84 (runs): in a run with series on the second axis, the rows kept are those of the first axis, equalized with the variables and
series of the first, and those of the second axis, equalized with the variables and series of the second, whose case is present for
every choice of values of the merged series and the fixed variables. -/
theorem C84_run (f : Frame) (p : AggParams) (hp : p.axis₂.series ≠ []) (vars : List (String × List String)) (key : List Val → String)
    (o₁ o₂ g : Frame) (I : EqInput f p.indyVar true)
    (h₁ : equalizeAxis f p.indyVar p.axis₁.fcstVarVal p.axis₁.series (p.fixed.map Prod.fst) (p.fixed.map fun q => (product q.2).flatten) = .ok o₁)
    (h₂ : equalizeAxis f p.indyVar p.axis₂.fcstVarVal p.axis₂.series (p.fixed.map Prod.fst) (p.fixed.map fun q => (product q.2).flatten) = .ok o₂)
    (hrows : ∀ r ∈ o₁.rows ++ o₂.rows, r ∈ f.rows)
    (hvars : addFixVars (seriesVarsForEE (mergedSeries p.axis₁.series p.axis₂.series)) (p.fixed.map Prod.fst)
      (p.fixed.map fun q => (product q.2).flatten) = .ok vars)
    (hcols : ∀ v ∈ vars, v.1 ∈ f.cols) (hne : ∀ v ∈ vars, v.2 ≠ [])
    (hkey : ∀ r ∈ f.rows, IsCaseKey f p.indyVar true r (key r)) (hg : g = { f with rows := o₁.rows ++ o₂.rows }) :
    p.equalize f = .ok { f with rows := (o₁.rows ++ o₂.rows).filter (fun r => decide (IsCommonCase g vars key r)) } := by
  unfold AggParams.equalize
  rw [if_neg (by simpa using hp)]
  exact C84_result f p.indyVar p.axis₁.fcstVarVal p.axis₂.fcstVarVal p.axis₁.series p.axis₂.series _ _ vars key o₁ o₂ g I h₁ h₂ hrows
    hvars hcols hne hkey hg

/-- Temperature on the first and height on the second axis, with a case that only the height has. -/
def exTwoAxesVars : Frame :=
  { cols := ["fcst_valid_beg", "fcst_lead", "model", "fcst_var", "stat_name"],
    rows := [[.str "t1", .num 6 "6", .str "A", .str "TMP", .str "ME"],
      [.str "t1", .num 6 "6", .str "B", .str "HGT", .str "ME"],
      [.str "t2", .num 6 "6", .str "B", .str "HGT", .str "ME"]] }

def exTwoAxesVarsRun : AggParams :=
  ⟨"True", "fcst_lead", ["6"], [], ⟨[("model", ["A"])], ["ME"], [], [("TMP", ["ME"])]⟩,
    ⟨[("model", ["B"])], ["ME"], [], [("HGT", ["ME"])]⟩⟩

/-- The hypotheses of `C84_run` hold for it. -/
example : ∃ rows, exTwoAxesVarsRun.equalize exTwoAxesVars = .ok { exTwoAxesVars with rows := rows } := by
  have I : EqInput exTwoAxesVars exTwoAxesVarsRun.indyVar true :=
    ⟨by unfold FrameWF; decide, by decide, by decide, by decide, fun _ h => absurd (by decide) h⟩
  obtain ⟨key, hk⟩ := C01_case_key_exists I
  exact ⟨_, C84_run exTwoAxesVars exTwoAxesVarsRun (by decide) [("model", ["B"])] key { exTwoAxesVars with rows := exTwoAxesVars.rows.take 1 }
    { exTwoAxesVars with rows := exTwoAxesVars.rows.drop 1 } _ I (by decide +kernel) (by decide +kernel) (by decide) (by decide +kernel)
    (by decide) (by decide) (fun r hr => (hk r hr _).mpr rfl) rfl⟩

/-- C84 in a run: the row of the case t2, which the first axis does not have, is kept. -/
theorem C84_run_counterexample : exTwoAxesVarsRun.equalize exTwoAxesVars = .ok exTwoAxesVars := by decide +kernel

end Metcalcpy.Props
