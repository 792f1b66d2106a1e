/-
C287  The steps of a blocking or regime run are those named in the environment.
-/
import Verif.Model.Steps
import Verif.Props.C99_AggPoints

namespace Metcalcpy.Props
open Metcalcpy Spec

theorem plusParts_join (names : List String) (hne : names ≠ []) (hp : ∀ s ∈ names, '+' ∉ s.toList) :
    plusParts (String.ofList (['+'].intercalate (names.map String.toList))) = names := by
  unfold plusParts
  rw [String.toList_ofList, splitAt1_join '+' (names.map String.toList) (by simpa using hne)]
  · rw [List.map_map]
    conv_rhs => rw [← List.map_id names]
    apply List.map_congr_left
    intro s _
    simp
  · intro w hw
    obtain ⟨s, hs, rfl⟩ := List.mem_map.mp hw
    exact hp s hs

/-- C287: names joined by plus signs come back in order, for forecasts and observations each from their own variable. -/
theorem C287_named (env : String → Option String) (fcst obs : List String) (hf : fcst ≠ []) (ho : obs ≠ [])
    (pf : ∀ s ∈ fcst, '+' ∉ s.toList) (po : ∀ s ∈ obs, '+' ∉ s.toList)
    (ef : env "FCST_STEPS" = some (String.ofList (['+'].intercalate (fcst.map String.toList))))
    (eo : env "OBS_STEPS" = some (String.ofList (['+'].intercalate (obs.map String.toList)))) :
    parseSteps env = (fcst, obs) := by
  unfold parseSteps
  rw [ef, eo, Option.getD_some, Option.getD_some, plusParts_join fcst hf pf, plusParts_join obs ho po]

/-- C287: without a variable no step is requested for it, whatever the other says: the only name in its list is empty. -/
theorem C287_unset (env : String → Option String) :
    (env "FCST_STEPS" = none → (parseSteps env).1 = [""]) ∧ (env "OBS_STEPS" = none → (parseSteps env).2 = [""]) := by
  unfold parseSteps
  refine ⟨fun h => ?_, fun h => ?_⟩ <;> rw [h] <;> rfl

/-- C287: no other variable matters, and each list depends on its own variable only. -/
theorem C287_own_variable (env env' : String → Option String) :
    (env "FCST_STEPS" = env' "FCST_STEPS" → (parseSteps env).1 = (parseSteps env').1) ∧
    (env "OBS_STEPS" = env' "OBS_STEPS" → (parseSteps env).2 = (parseSteps env').2) := by
  unfold parseSteps
  exact ⟨fun h => by rw [h], fun h => by rw [h]⟩

/-- C287: nothing is lost or made up: whatever the text of the variable, joining the names by plus signs gives it back, and
no name has a plus sign. -/
theorem C287_whole (s : String) : ['+'].intercalate ((plusParts s).map String.toList) = s.toList ∧
    ∀ w ∈ plusParts s, '+' ∉ w.toList := by
  unfold plusParts
  rw [List.map_map]
  have e : (String.toList ∘ String.ofList) = id := by funext l; simp
  rw [e, List.map_id]
  have key : ∀ cs : List Char, ['+'].intercalate (splitAt1 '+' cs) = cs ∧ ∀ w ∈ splitAt1 '+' cs, '+' ∉ w := by
    intro cs
    induction cs with
    | nil => simp [splitAt1, List.intercalate]
    | cons c cs ih =>
      obtain ⟨h1, h2⟩ := ih
      rw [splitAt1]
      cases hs : splitAt1 '+' cs with
      | nil => exact absurd hs (splitAt1_ne_nil '+' cs)
      | cons w ws =>
        rw [hs] at h1 h2
        by_cases hc : c = '+'
        · subst hc
          simp only [beq_self_eq_true, if_true]
          refine ⟨?_, ?_⟩
          · rw [← h1]; simp [List.intercalate]
          · intro x hx
            rcases List.mem_cons.mp hx with rfl | hx
            · simp
            · exact h2 x hx
        · have hb : (c == '+') = false := by simpa using hc
          simp only [hb, Bool.false_eq_true, if_false]
          refine ⟨?_, ?_⟩
          · rw [← h1]
            cases ws <;> simp [List.intercalate]
          · intro x hx
            rcases List.mem_cons.mp hx with rfl | hx
            · rw [List.mem_cons, not_or]
              exact ⟨fun e => hc e.symm, h2 w (by simp)⟩
            · exact h2 x (by simp [hx])
  refine ⟨(key s.toList).1, ?_⟩
  intro w hw
  obtain ⟨x, hx, rfl⟩ := List.mem_map.mp hw
  rw [String.toList_ofList]
  exact (key s.toList).2 x hx

/-- C287 (example): three steps for forecasts, one for observations. -/
example := C287_named
  (fun v => if v = "FCST_STEPS" then some "ELBOW+EOF+KMEANS" else if v = "OBS_STEPS" then some "EOF" else none)
  ["ELBOW", "EOF", "KMEANS"] ["EOF"] (by decide) (by decide) (by decide) (by decide) (by decide +kernel) (by decide +kernel)

/-- C287 (example): no variables. -/
example : parseSteps (fun _ => none) = ([""], [""]) := rfl

end Metcalcpy.Props
