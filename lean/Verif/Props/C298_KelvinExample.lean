/-
C298  The skill of the Kelvin wave example compares the model with the observations.
-/
import Verif.Model.KelvinExample
import Verif.Props.C147_Ccew

namespace Metcalcpy.Props
open Metcalcpy

/-- Every value of a field (time, latitude, longitude) times `k`; missing values stay missing. -/
def fieldTimes (k : ℚ) (a : List (List (List Cell))) : List (List (List Cell)) := a.map (List.map (List.map (Option.map (k * ·))))

theorem rescale_eq (a : List (List (List Cell))) : rescalePrecip a = fieldTimes 250 a := by
  have : (fun x : ℚ => x * 1000 / 4) = fun x => 250 * x := by
    funext x
    ring
  unfold rescalePrecip fieldTimes
  rw [← this]

/-- C298 is false: whatever the model precipitation and whatever the activities are, as long as they can be computed, the skill is the
same. -/
theorem C298_model_counterexample {β γ : Type} (waveact : List (List (List Cell)) → Except PyErr β)
    (waveact' : List (List (List Cell)) → Except PyErr γ) (corr : List Cell → List Cell → Cell)
    (model model' obs : List (List (List Cell))) (nlat nlon : ℕ) (a b : β) (a' b' : γ)
    (ha : waveact (fieldTimes 250 model) = .ok a) (hb : waveact obs = .ok b)
    (ha' : waveact' (fieldTimes 250 model') = .ok a') (hb' : waveact' obs = .ok b') :
    kelvinSkill waveact corr model obs nlat nlon = kelvinSkill waveact' corr model' obs nlat nlon := by
  unfold kelvinSkill
  simp only [rescale_eq]
  rw [ha, hb, ha', hb']
  rfl

/-- C298, what is computed: for every time and every latitude but the first, the correlation along the longitudes of the observed
precipitation there with the observed precipitation at the first latitude. -/
theorem C298_value_partial {β : Type} (waveact : List (List (List Cell)) → Except PyErr β) (corr : List Cell → List Cell → Cell)
    (model : List (List (List Cell))) (obs : List (List Cell × List (List Cell))) (nlat nlon : ℕ) (a b : β)
    (ha : waveact (fieldTimes 250 model) = .ok a) (hb : waveact (obs.map fun t => t.1 :: t.2) = .ok b)
    (ht : 2 ≤ obs.length) (hn : 2 ≤ nlat) (hl : 0 < nlon)
    (hobs : ∀ t ∈ obs, t.2.length = nlat ∧ ∀ row ∈ t.2, row.length = nlon) :
    kelvinSkill waveact corr model (obs.map fun t => t.1 :: t.2) (nlat + 1) nlon =
      .ok (obs.map fun t => t.2.map fun row => corr row t.1) := by
  obtain ⟨after, h⟩ := C148_skill_partial corr obs nlat nlon ht hn hl hobs
  unfold kelvinSkill
  simp only [rescale_eq]
  rw [ha, hb, h]
  rfl

/-- C298, what is refused: a data set whose activity cannot be computed raises that error, the model first. -/
theorem C298_refused {β : Type} (waveact : List (List (List Cell)) → Except PyErr β) (corr : List Cell → List Cell → Cell)
    (model obs : List (List (List Cell))) (nlat nlon : ℕ) (e : PyErr) :
    (waveact (fieldTimes 250 model) = .error e → kelvinSkill waveact corr model obs nlat nlon = .error e) ∧
    (∀ a, waveact (fieldTimes 250 model) = .ok a → waveact obs = .error e →
      kelvinSkill waveact corr model obs nlat nlon = .error e) := by
  refine ⟨fun h => ?_, fun a h h2 => ?_⟩
  · unfold kelvinSkill
    simp only [rescale_eq]
    rw [h]
    rfl
  · unfold kelvinSkill
    simp only [rescale_eq]
    rw [h, h2]
    rfl

/-- Two times, three latitudes: the model values 1 and 9 give the same skill. -/
example : let obs := [[[some 1, some 2], [some 1, some 2], [some 2, some 1]], [[some 3, some 5], [some 5, some 3], [some 3, some 5]]]
    let corr : List Cell → List Cell → Cell := fun a b => if a = b then some 1 else some 0
    let act : List (List (List Cell)) → Except PyErr (List (List (List Cell))) := fun x => .ok x
    (kelvinSkill act corr [[[some 1]]] obs 3 2).toOption = some [[some 1, some 0], [some 0, some 1]] ∧
    (kelvinSkill act corr [[[some 9]]] obs 3 2).toOption = some [[some 1, some 0], [some 0, some 1]] := by
  decide +kernel

end Metcalcpy.Props
