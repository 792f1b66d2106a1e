/-
C284  A run that appends adds its rows to those of the earlier runs (partial).
C285  After a scorecard run its file holds the rows of that run (partial).
C286  A scorecard run that fails leaves the earlier file in place (partial).
-/
import Verif.Model.OutputFile
import Verif.Props.C110_ScorecardRun

namespace Metcalcpy.Spec

/-- The rows found in a file: all lines but the header. -/
def fileRows (old : Option (List (List String))) : List (List String) := (old.getD []).tail

/-- A file read back as a table: the header and the rows below it. -/
def ReadsBack (file : Option (List (List String))) (cols : List String) (rows : List (List String)) : Prop :=
  file = some (cols :: rows)

/-- The user asks to append: the bare or the quoted word True. -/
def WantsAppend (a : Option YamlVal) : Prop := a = some (.str "True") ∨ a = some (.bool true)

/-- What appending means: the file reads back as the earlier rows followed by the new ones, all of them below the names of
their columns. -/
def Accumulated (old new : Option (List (List String))) (cols : List String) (rows : List (List String)) : Prop :=
  ReadsBack new cols (fileRows old ++ rows) ∧
    (fileRows old = [] ∨ ReadsBack old cols (fileRows old))

end Metcalcpy.Spec

namespace Metcalcpy.Props
open Metcalcpy Spec

theorem appendMode_iff (a : Option YamlVal) : appendMode a = true ↔ a = some (.str "True") := by
  cases a with
  | none => simp [appendMode]
  | some v => cases v <;> simp [appendMode]

theorem saveResults_at (d : TableDisk) (path : String) (a : Option YamlVal) (cols : List String) (rows : List (List String)) :
    saveResults d path a cols rows path =
      some (if a = some (.str "True") then (d path).getD [] ++ rows else cols :: rows) := by
  unfold saveResults saveTable
  by_cases h : a = some (.str "True")
  · subst h; simp [appendMode]
  · have : appendMode a = false := by
      rw [← Bool.not_eq_true]; exact fun e => h ((appendMode_iff a).mp e)
    simp [this, h]

/-- C284: a run changes no other file. -/
theorem C284_other_files (d : TableDisk) (path p : String) (a : Option YamlVal) (cols : List String)
    (rows : List (List String)) (h : p ≠ path) : saveResults d path a cols rows p = d p := by
  unfold saveResults saveTable
  split <;> simp [h]

/-- C284: without the parameter the file holds the rows of the run, whatever was there. -/
theorem C284_replaced (d : TableDisk) (path : String) (a : Option YamlVal) (cols : List String) (rows : List (List String))
    (h : ¬ WantsAppend a) : ReadsBack (saveResults d path a cols rows path) cols rows := by
  have h' : a ≠ some (.str "True") := fun e => h (Or.inl e)
  unfold ReadsBack
  rw [saveResults_at, if_neg h']

/-- C284: a first run without appending and any number of runs with the text 'True' and the same columns leave a file that
reads back as all their rows, in the order of the runs. -/
theorem C284_runs (d : TableDisk) (path : String) (a : Option YamlVal) (cols : List String) (first : List (List String))
    (runs : List (List (List String))) (h : ¬ WantsAppend a) :
    ReadsBack (runs.foldl (fun e rows => saveResults e path (some (.str "True")) cols rows)
      (saveResults d path a cols first) path) cols (first ++ runs.flatten) := by
  have key : ∀ (runs : List (List (List String))) (e : TableDisk) (old : List (List String)), e path = some (cols :: old) →
      runs.foldl (fun e rows => saveResults e path (some (.str "True")) cols rows) e path =
        some (cols :: (old ++ runs.flatten)) := by
    intro runs
    induction runs with
    | nil => intro e old he; simpa using he
    | cons r rs ih =>
      intro e old he
      rw [List.foldl_cons, ih _ (old ++ r) (by rw [saveResults_at, if_pos rfl, he]; simp)]
      simp
  exact key runs _ first (C284_replaced d path a cols first h)

/-- C284 (exact extent): a run told to append does so exactly in these cases: the parameter is the text 'True' and the file
is there with a header of the same columns, or the parameter is the bare word and there are no earlier rows. -/
theorem C284_exactly_partial (d : TableDisk) (path : String) (a : Option YamlVal) (cols : List String)
    (rows : List (List String)) (h : WantsAppend a) :
    Accumulated (d path) (saveResults d path a cols rows path) cols rows ↔
      (a = some (.str "True") ∧ ∃ old, d path = some (cols :: old)) ∨
      (a = some (.bool true) ∧ fileRows (d path) = []) := by
  unfold Accumulated ReadsBack
  rw [saveResults_at]
  rcases h with rfl | rfl
  · simp only [if_true, Option.some.injEq, true_and, reduceCtorEq, false_and, or_false]
    cases hd : d path with
    | none =>
      simp only [Option.getD_none, List.nil_append, fileRows, List.tail_nil, reduceCtorEq, exists_false, iff_false]
      rintro ⟨h1, -⟩
      have := congrArg List.length h1
      simp at this
    | some ls =>
      cases ls with
      | nil =>
        simp only [Option.getD_some, List.nil_append, fileRows, List.tail_nil, Option.some.injEq, reduceCtorEq,
          exists_false, iff_false]
        rintro ⟨h1, -⟩
        have := congrArg List.length h1
        simp at this
      | cons c ls =>
        simp only [fileRows, Option.getD_some, List.tail_cons, List.cons_append, List.cons.injEq, Option.some.injEq]
        constructor
        · rintro ⟨⟨rfl, -⟩, -⟩; exact ⟨ls, rfl, rfl⟩
        · rintro ⟨_, rfl, -⟩; simp
  · simp only [Option.some.injEq, reduceCtorEq, if_false, List.cons.injEq, true_and, false_and, false_or]
    constructor
    · rintro ⟨h1, -⟩
      exact List.append_left_eq_self.mp h1.symm
    · intro h1
      rw [h1]
      exact ⟨rfl, Or.inl rfl⟩

/-- Files with one table of two rows. -/
def oneTable : TableDisk := fun p => if p = "out.data" then some [["model", "stat_value"], ["A", "1"], ["B", "2"]] else none

/-- C284 (counterexample): with `append_to_file: True` in the YAML file the rows of the earlier run are lost. -/
theorem C284_bare_true_counterexample :
    WantsAppend (some (.bool true)) ∧
      saveResults oneTable "out.data" (some (.bool true)) ["model", "stat_value"] [["C", "3"]] "out.data" =
        some [["model", "stat_value"], ["C", "3"]] := by
  refine ⟨Or.inr rfl, by decide⟩

/-- C284 (counterexample): the first of the runs that append writes no header, so that its first row is read as one. -/
theorem C284_first_counterexample :
    saveResults oneTable "new.data" (some (.str "True")) ["model", "stat_value"] [["C", "3"], ["D", "4"]] "new.data" =
      some [["C", "3"], ["D", "4"]] := by decide

/-- C284 (counterexample): rows with other columns are added below the names of the first. -/
theorem C284_columns_counterexample :
    saveResults oneTable "out.data" (some (.str "True")) ["stat_value", "model"] [["3", "C"]] "out.data" =
      some [["model", "stat_value"], ["A", "1"], ["B", "2"], ["3", "C"]] := by decide

/-- C284 (example): three runs. -/
example := C284_runs oneTable "new.data" none ["model", "stat_value"] [["A", "1"]] [[["B", "2"], ["C", "3"]], [["D", "4"]]]
  (by unfold WantsAppend; simp)

/-- C284 (example): other files. -/
example : saveResults oneTable "new.data" none ["model"] [["A"]] "out.data" = oneTable "out.data" :=
  C284_other_files oneTable "new.data" "out.data" none ["model"] [["A"]] (by decide)

/-- C284 (example): the extent for the text and the table above. -/
example := (C284_exactly_partial oneTable "out.data" (some (.str "True")) ["model", "stat_value"] [["C", "3"]]
  (Or.inl rfl)).mpr (Or.inl ⟨rfl, _, rfl⟩)

/-! ### Scorecards -/

/-- C285: what a scorecard run without appending leaves: after a run that returns, the file holds the rows of the run
(whose columns and values are those of `scorecard`) exactly when there is a row or the file had none before. -/
theorem C285_exactly_partial (sig : List PyNum → List PyNum → Except PyErr PyNum) (shown : Val → String) (d : TableDisk)
    (path : String) (a : Option YamlVal) (f : Frame) (c : AggConfig) (rows : List (List (String × Val)))
    (hf : f.isEmpty = false) (ha : ¬ WantsAppend a) (hr : scorecard sig f c = .ok rows) :
    (scorecardFile sig shown d path a f c).1 = .ok () ∧
    (fileRows ((scorecardFile sig shown d path a f c).2 path) = rows.map (fun w => w.map (fun x => shown x.2)) ↔
      rows ≠ [] ∨ fileRows (d path) = []) ∧
    (∀ r, rows.head? = some r → ((scorecardFile sig shown d path a f c).2 path).bind List.head? = some (r.map Prod.fst)) ∧
    (rows = [] → (scorecardFile sig shown d path a f c).2 = d) := by
  have h' : a ≠ some (.str "True") := fun e => ha (Or.inl e)
  unfold scorecardFile
  rw [hf, hr]
  cases rows with
  | nil => simp
  | cons r rs =>
    simp only [Bool.false_eq_true, if_false, saveResults_at, if_neg h', fileRows, Option.getD_some, List.tail_cons, ne_eq,
      reduceCtorEq, not_false_eq_true, true_or, iff_true, List.head?_cons, Option.some.injEq, Option.bind_some,
      true_and, false_implies, and_true]
    rintro _ rfl
    rfl

/-- C285: a scorecard run that appends adds its rows to the file. -/
theorem C285_appended (sig : List PyNum → List PyNum → Except PyErr PyNum) (shown : Val → String) (d : TableDisk)
    (path : String) (f : Frame) (c : AggConfig) (rows : List (List (String × Val))) (cols : List String)
    (old : List (List String)) (hf : f.isEmpty = false) (hr : scorecard sig f c = .ok rows)
    (hd : d path = some (cols :: old)) :
    (scorecardFile sig shown d path (some (.str "True")) f c).2 path =
      some (cols :: (old ++ rows.map (fun w => w.map (fun x => shown x.2)))) := by
  unfold scorecardFile
  rw [hf, hr]
  cases rows with
  | nil => simp [hd]
  | cons r rs => simp [saveResults_at, hd]

/-- C285: a scorecard run, failing or not, changes no other file. -/
theorem C285_other_files (sig : List PyNum → List PyNum → Except PyErr PyNum) (shown : Val → String) (d : TableDisk)
    (path p : String) (a : Option YamlVal) (f : Frame) (c : AggConfig) (h : p ≠ path) :
    (scorecardFile sig shown d path a f c).2 p = d p := by
  unfold scorecardFile
  split
  · simp [saveTable, h]
  · split
    · rfl
    · rfl
    · exact C284_other_files d path p a _ _ h

/-- C285 (counterexample): a comparison without data leaves the rows of an earlier run in the file, as if they were its
own. -/
theorem C285_stale_counterexample :
    scorecard sumProducts scoreFrame (scoreConfig ["A Y 12 ME", "B Y 12 ME", "DIFF"]) = .ok [] ∧
      (scorecardFile sumProducts Val.text oneTable "out.data" none scoreFrame
        (scoreConfig ["A Y 12 ME", "B Y 12 ME", "DIFF"])).2 "out.data" =
      some [["model", "stat_value"], ["A", "1"], ["B", "2"]] := by decide +kernel

/-- C285 (example): the difference of both models in region X replaces the earlier table. -/
example := C285_exactly_partial sumProducts Val.text oneTable "out.data" none scoreFrame
  (scoreConfig ["A X 12 ME", "B X 12 ME", "DIFF"]) _ (by decide) (by unfold WantsAppend; simp) scoreConfig_run

/-- C285 (example): the same row added to it. -/
example := C285_appended sumProducts Val.text oneTable "out.data" scoreFrame
  (scoreConfig ["A X 12 ME", "B X 12 ME", "DIFF"]) _ ["model", "stat_value"] [["A", "1"], ["B", "2"]] (by decide)
  scoreConfig_run (by decide)

/-- C286 (exact extent): a scorecard run that fails leaves the file as it was exactly when its input has rows and columns,
or the file was the header of the input. -/
theorem C286_exactly_partial (sig : List PyNum → List PyNum → Except PyErr PyNum) (shown : Val → String) (d : TableDisk)
    (path : String) (a : Option YamlVal) (f : Frame) (c : AggConfig) (e : PyErr)
    (h : (scorecardFile sig shown d path a f c).1 = .error e) :
    (scorecardFile sig shown d path a f c).2 path = d path ↔
      (f.cols ≠ [] ∧ f.rows ≠ []) ∨ d path = some [f.cols] := by
  unfold scorecardFile at h ⊢
  by_cases hf : f.isEmpty = true
  · have hn : ¬ (f.cols ≠ [] ∧ f.rows ≠ []) := by
      unfold Frame.isEmpty at hf
      simp only [Bool.or_eq_true, List.isEmpty_iff] at hf
      tauto
    rw [if_pos hf]
    simp only [saveTable, if_true, Bool.false_eq_true, if_false, List.nil_append, List.append_nil, hn, false_or]
    exact eq_comm
  · have hn : f.cols ≠ [] ∧ f.rows ≠ [] := by
      unfold Frame.isEmpty at hf
      simp only [Bool.or_eq_true, List.isEmpty_iff] at hf
      tauto
    rw [if_neg hf] at h ⊢
    split at h
    · simp [hn]
    · simp at h
    · simp at h

/-- C286 (counterexample): an input without rows deletes the earlier rows, even in a run told to append. -/
theorem C286_empty_counterexample :
    (scorecardFile sumProducts Val.text oneTable "out.data" (some (.str "True")) ⟨["model"], []⟩ (scoreConfig [])).1 =
      .error .valueError ∧
    (scorecardFile sumProducts Val.text oneTable "out.data" (some (.str "True")) ⟨["model"], []⟩ (scoreConfig [])).2
      "out.data" = some [["model"]] := by decide +kernel

/-- C286 (example): the lead as the independent variable fails and leaves the file. -/
example : (scorecardFile sumProducts Val.text oneTable "out.data" none scoreFrame
    { series := [("model", ["A", "B"]), ("vx_mask", ["X"])], indyVar := "fcst_lead", indyVals := ["12"],
      stats := ["ME"], derived := [["A X ME", "B X ME", "DIFF"]], fcstVars := [], groups := [] }).2 "out.data" =
    oneTable "out.data" :=
  (C286_exactly_partial _ _ _ _ _ _ _ .keyError (by decide +kernel)).mpr (Or.inl (by decide))

end Metcalcpy.Props
