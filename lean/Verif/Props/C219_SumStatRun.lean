/-
C219  With event equalization SumStat writes the common cases, each with its own statistic.
C220  A run asked to equalize never writes rows that were not equalized.
-/
import Verif.Model.SumStatRun
import Verif.Props.C201_AggRun
import Verif.Props.C107_SumStat

namespace Metcalcpy.Props
open Metcalcpy Spec

theorem numbered_frame (f : Frame) : f.numbered.frame = f := by
  unfold Frame.numbered IFrame.frame
  simp only [List.map_map, Function.comp_def]
  rw [List.zipIdx_map_fst]

theorem numbered_labels (f : Frame) : (f.numbered.rows.map Prod.fst).Nodup := by
  unfold Frame.numbered
  simp only [List.map_map, Function.comp_def]
  rw [List.zipIdx_map_snd]
  exact List.nodup_range'

theorem numbered_snd (f : Frame) : f.numbered.rows.map Prod.snd = f.rows := by
  have := numbered_frame f
  unfold IFrame.frame at this
  exact congrArg Frame.rows this

/-- With the equalization done, the run is a run on the rows kept. -/
theorem sumStatRun_eq (statOf : String → List Val → Except PyErr Cell) (lineType : String) (p : AggParams) (f g : Frame)
    (hon : p.eventEqual = "True") (hren : f.cols.map (sumRename lineType) = f.cols) (hg : p.equalize f = .ok g)
    (hcols : g.cols = f.cols) (hl : sumFields.lookup lineType ≠ none) :
    sumStatRun statOf lineType p f = sumStat statOf (sumConfigOf lineType p) g.numbered := by
  unfold sumStatRun sumStat
  have e0 : (sumConfigOf lineType p).lineType = lineType := rfl
  have e1 : g.numbered.cols = f.cols := hcols
  rw [e0, e1, hren]
  cases h : sumFields.lookup lineType with
  | none => exact absurd h hl
  | some fields =>
    have e2 : sumRunSteps statOf lineType p ⟨f.cols, f.rows⟩ = sumSteps statOf (sumConfigOf lineType p) g.numbered := by
      unfold sumRunSteps
      rw [if_pos (by rw [hon]; decide)]
      have : p.equalize ⟨f.cols, f.rows⟩ = .ok g := hg
      rw [this]
    obtain ⟨gc, gr⟩ := g
    have e3 : gc = f.cols := hcols
    subst e3
    simp only [e2]
    rfl

/-- Without equalization the run is the one of C107. -/
theorem C219_off (statOf : String → List Val → Except PyErr Cell) (lineType : String) (p : AggParams) (f : Frame)
    (hoff : p.eventEqual = "False") : sumStatRun statOf lineType p f = sumStat statOf (sumConfigOf lineType p) f.numbered := by
  unfold sumStatRun sumStat
  have e0 : (sumConfigOf lineType p).lineType = lineType := rfl
  rw [e0]
  cases h : sumFields.lookup lineType with
  | none => simp only [numbered_frame]; rfl
  | some fields =>
    have e2 : sumRunSteps statOf lineType p ⟨f.cols.map (sumRename lineType), f.rows⟩ =
        sumSteps statOf (sumConfigOf lineType p) ⟨f.numbered.cols.map (sumRename lineType), f.numbered.rows⟩ := by
      unfold sumRunSteps
      rw [if_neg (by rw [hoff]; decide)]
      rfl
    simp only [e2]
    rfl

/-- The removal of the fields and of the key, from a frame with the input columns. -/
theorem drop_written {f g : Frame} (fields fields' : List String) (hcols : g.cols = f.cols) (hn : f.cols.Nodup)
    (hnd : fields'.Nodup) (hff : ∀ n, n ∈ fields' ↔ n ∈ fields) :
    ∃ out, (do
      let g ← fields'.foldlM (fun g name => if name ∈ f.cols then dropColumn g name else .ok g) g
      if "equalize" ∈ g.cols then dropColumn g "equalize" else .ok g) = Except.ok out ∧
      (∀ n, n ∈ out.cols ↔ n ∈ f.cols ∧ n ∉ fields ∧ n ≠ "equalize") ∧
      List.Forall₂ (fun r o => ∀ n v, n ∈ out.cols → HasCell f r n v → HasCell out o n v) g.rows out.rows := by
  obtain ⟨gc, gr⟩ := g
  obtain ⟨fc, fr⟩ := f
  have e : gc = fc := hcols
  subst e
  obtain ⟨o1, e1, k1⟩ := dropAll_keeps (f := ⟨gc, gr⟩) gc (fun c h => h) fields' ⟨gc, gr⟩ _ hnd (keeps_refl hn) (by simp)
  simp only [bind, Except.bind]
  rw [e1]
  simp only
  have k2 : KeepsColumns ⟨gc, gr⟩ o1 (fun n => ¬ (n ∈ fields' ∧ n ∈ gc)) := keeps_congr k1 (by simp)
  have k3 : ∀ n, n ∈ gc → (¬ (n ∈ fields' ∧ n ∈ gc) ↔ n ∉ fields) := by
    intro n hm
    rw [← hff n]
    simp [hm]
  by_cases hq : "equalize" ∈ o1.cols
  · rw [if_pos hq]
    obtain ⟨o2, e2, k4⟩ := dropColumn_keeps k2 hq
    refine ⟨o2, e2, fun n => ?_, k4.2.2.imp fun r o h n v hm hc => h n v ((k4.2.1 n).mp hm).2 hc⟩
    rw [k4.2.1]
    constructor
    · rintro ⟨a, b, c⟩
      exact ⟨a, (k3 n a).mp b, c⟩
    · rintro ⟨a, b, c⟩
      exact ⟨a, (k3 n a).mpr b, c⟩
  · rw [if_neg hq]
    refine ⟨o1, rfl, fun n => ?_, k2.2.2.imp fun r o h n v hm hc => h n v ((k2.2.1 n).mp hm).2 hc⟩
    rw [k2.2.1]
    constructor
    · rintro ⟨a, b⟩
      refine ⟨a, (k3 n a).mp b, ?_⟩
      rintro rfl
      exact hq ((k2.2.1 _).mpr ⟨a, b⟩)
    · rintro ⟨a, b, _⟩
      exact ⟨a, (k3 n a).mpr b⟩

open Classical in
theorem equalize_kept {f : Frame} {p : AggParams} {init : List (String × List String)} {sv : String × List String}
    {parts : String → List String} {fix : List (String × List String)} {fv : String} {sts : List String}
    {rest : List (String × List String)} (R : OneAxisRun f p init sv parts fix fv sts rest) (key : List Val → String)
    (hkey : ∀ r ∈ f.rows, IsCaseKey f p.indyVar true r (key r)) :
    p.equalize f = .ok ⟨f.cols, (p.axis₁.fcstVarVal.flatMap fun q => q.2.map fun s => (q.1, s)).flatMap fun q => f.rows.filter fun r =>
      decide ((∃ v ∈ sv.2, ∃ w ∈ parts v, HasCell f r sv.1 (.str w)) ∧ HasCell f r "fcst_var" (.str q.1) ∧
        HasCell f r "stat_name" (.str q.2) ∧ CommonToAll f (init ++ [sv]) parts fix q.1 q.2 key r)⟩ := by
  have hun : sv.2.flatMap ungroup = sv.2.flatMap parts := by
    apply List.flatMap_congr
    intro v hv
    exact C01_ungroup v _ (R.groups sv (by simp) v hv).1
  have hsv := (R.columns sv (by simp)).1
  have hkept : (p.axis₁.fcstVarVal.flatMap (fun q => q.2.map (fun s => (q.1, s)))).flatMap
      (keptRows f sv ((init ++ [sv]).map (fun x => (x.1, x.2.flatMap parts)) ++ fix) key) = ((p.axis₁.fcstVarVal.flatMap fun q => q.2.map fun s => (q.1, s)).flatMap fun q => f.rows.filter fun r =>
       decide ((∃ v ∈ sv.2, ∃ w ∈ parts v, HasCell f r sv.1 (.str w)) ∧ HasCell f r "fcst_var" (.str q.1) ∧
         HasCell f r "stat_name" (.str q.2) ∧ CommonToAll f (init ++ [sv]) parts fix q.1 q.2 key r)) := by
    apply List.flatMap_congr
    intro q _
    unfold keptRows
    rw [List.filter_filter]
    apply List.filter_congr
    intro r _
    rw [← Bool.decide_and, decide_eq_decide, common_iff_any R]
    unfold Selected
    constructor
    · rintro ⟨h1, h2, h3, h4⟩
      obtain ⟨w, hw, hc⟩ := h2 hsv
      rw [hun] at hw
      obtain ⟨v, hv, hw⟩ := List.mem_flatMap.mp hw
      exact ⟨⟨v, hv, w, hw, hc⟩, h3 R.forecast, h4 R.statistic, h1⟩
    · rintro ⟨⟨v, hv, w, hw, hc⟩, h3, h4, h1⟩
      exact ⟨h1, fun _ => ⟨w, hun ▸ List.mem_flatMap.mpr ⟨v, hv, hw⟩, hc⟩, fun _ => h3, fun _ => h4⟩
  have heq := equalize_ok R key hkey
  rw [hkept] at heq
  exact heq

open Classical in
/-- C219: a run with event equalization on one axis (configuration as in C201): the table written has exactly the input rows with
a listed forecast variable and statistic whose case is common to all series, by pair of forecast variable and statistic and in the
order of the input; `stat_value` is the statistic of the row alone, the other columns are those of the row without the fields of
the line type. -/
theorem C219_rows {f : Frame} {p : AggParams} {init : List (String × List String)} {sv : String × List String}
    {parts : String → List String} {fix : List (String × List String)} {fv : String} {sts : List String}
    {rest : List (String × List String)} (R : OneAxisRun f p init sv parts fix fv sts rest) (key : List Val → String)
    (hkey : ∀ r ∈ f.rows, IsCaseKey f p.indyVar true r (key r))
    (statOf : String → List Val → Except PyErr Cell) (lineType : String) (fields : List String)
    (hf : (lineType, fields) ∈ removedFields) (hlt : lineType = "sal1l2" → ∀ n ∈ f.cols, n ∉ anomalyNames.map Prod.fst)
    (hn : f.cols.Nodup) (hcolon : (∀ v ∈ p.indyVals, ':' ∉ v.toList) ∧ ∀ v ∈ init ++ [sv], ':' ∉ v.1.toList)
    (kept : List (List Val))
    (hk : kept = (p.axis₁.fcstVarVal.flatMap fun q => q.2.map fun s => (q.1, s)).flatMap fun q => f.rows.filter fun r =>
      decide ((∃ v ∈ sv.2, ∃ w ∈ parts v, HasCell f r sv.1 (.str w)) ∧ HasCell f r "fcst_var" (.str q.1) ∧
        HasCell f r "stat_name" (.str q.2) ∧ CommonToAll f (init ++ [sv]) parts fix q.1 q.2 key r))
    (hne : kept ≠ [])
    (hv : ∀ r ∈ kept, ∃ s v, HasCell f r "stat_name" (.str s) ∧ statOf (lower s) r = .ok v) :
    ∃ out, sumStatRun statOf lineType p f = .ok out ∧ out.cols.Nodup ∧
      (∀ n, n ∈ out.cols ↔ (n ∈ f.cols ∨ n = "stat_value") ∧ n ∉ fields) ∧
      List.Forall₂ (fun r o =>
        (∀ s v, HasCell f r "stat_name" (.str s) → statOf (lower s) r = .ok v →
          HasCell out o "stat_value" (match v with | some q => .num q "" | none => .null)) ∧
        (∀ n v, n ∈ out.cols → n ≠ "stat_value" → HasCell f r n v → HasCell out o n v)) kept out.rows := by
  have heq := equalize_kept R key hkey
  rw [← hk] at heq
  have hkf : ∀ r ∈ kept, r ∈ f.rows := by
    intro r hr
    rw [hk] at hr
    obtain ⟨q, _, hr⟩ := List.mem_flatMap.mp hr
    exact List.mem_of_mem_filter hr
  obtain ⟨fields', hl1, _⟩ := removedFields_lookup hf
  have hrun := sumStatRun_eq statOf lineType p f ⟨f.cols, kept⟩ R.on (sumRename_id hlt) heq rfl (by rw [hl1]; simp)
  obtain ⟨out, e, n1, n2, n3⟩ := C107_rows_partial statOf (sumConfigOf lineType p) (Frame.numbered ⟨f.cols, kept⟩) fields
    p.axis₁.series p.axis₂.series hf hlt rfl rfl hcolon.1 (by rw [R.series]; exact hcolon.2) (by rw [R.second]; simp)
    hn (by
      intro r hr
      have : r.2 ∈ kept := by
        have h := List.mem_map_of_mem (f := Prod.snd) hr
        rw [numbered_snd] at h
        exact h
      exact R.input.wf _ (hkf _ this)) (by
      intro h0
      apply hne
      have := numbered_snd ⟨f.cols, kept⟩
      rw [h0] at this
      exact this.symm) (numbered_labels _) (by
      intro r hr
      have : r.2 ∈ kept := by
        have h := List.mem_map_of_mem (f := Prod.snd) hr
        rw [numbered_snd] at h
        exact h
      rw [numbered_frame]
      obtain ⟨s, v, h1, h2⟩ := hv _ this
      exact ⟨s, v, h1, h2⟩)
  refine ⟨out, hrun.trans e, n1, ?_, ?_⟩
  · intro n
    have : n ∈ f.cols → n ≠ "equalize" := fun hm h => R.input.nokey (h ▸ hm)
    rw [n2]
    constructor
    · rintro ⟨a, b, _⟩
      exact ⟨a, b⟩
    · rintro ⟨a, b⟩
      refine ⟨a, b, ?_⟩
      rcases a with a | a
      · exact this a
      · rw [a]; decide
  · rw [numbered_frame] at n3
    have h := numbered_snd ⟨f.cols, kept⟩
    have h' : kept = (Frame.numbered ⟨f.cols, kept⟩).rows.map Prod.snd := h.symm
    rw [h', List.forall₂_map_left_iff]
    exact n3

open Classical in
/-- C219: when no case is common to all series, a table without rows is written, with the input columns. -/
theorem C219_none {f : Frame} {p : AggParams} {init : List (String × List String)} {sv : String × List String}
    {parts : String → List String} {fix : List (String × List String)} {fv : String} {sts : List String}
    {rest : List (String × List String)} (R : OneAxisRun f p init sv parts fix fv sts rest) (key : List Val → String)
    (hkey : ∀ r ∈ f.rows, IsCaseKey f p.indyVar true r (key r))
    (statOf : String → List Val → Except PyErr Cell) (lineType : String) (fields : List String)
    (hf : (lineType, fields) ∈ removedFields) (hlt : lineType = "sal1l2" → ∀ n ∈ f.cols, n ∉ anomalyNames.map Prod.fst)
    (hn : f.cols.Nodup)
    (hk : ((p.axis₁.fcstVarVal.flatMap fun q => q.2.map fun s => (q.1, s)).flatMap fun q => f.rows.filter fun r =>
      decide ((∃ v ∈ sv.2, ∃ w ∈ parts v, HasCell f r sv.1 (.str w)) ∧ HasCell f r "fcst_var" (.str q.1) ∧
        HasCell f r "stat_name" (.str q.2) ∧ CommonToAll f (init ++ [sv]) parts fix q.1 q.2 key r)) = []) :
    ∃ out, sumStatRun statOf lineType p f = .ok out ∧ out.rows = [] ∧ ∀ n, n ∈ out.cols ↔ n ∈ f.cols ∧ n ∉ fields := by
  have he := equalize_kept R key hkey
  rw [hk] at he
  obtain ⟨fields', hl, hff⟩ := removedFields_lookup hf
  have hnd := (sumFields_nodup hl).1
  unfold sumStatRun
  rw [hl, sumRename_id hlt]
  have e2 : sumRunSteps statOf lineType p ⟨f.cols, f.rows⟩ = (⟨f.cols, []⟩, none) := by
    unfold sumRunSteps
    rw [if_pos (by rw [R.on]; decide)]
    have : p.equalize ⟨f.cols, f.rows⟩ = .ok ⟨f.cols, []⟩ := he
    rw [this]
    rfl
  simp only [e2]
  obtain ⟨out, e, h1, h2⟩ := drop_written (f := f) (g := ⟨f.cols, []⟩) fields fields' rfl hn hnd hff
  refine ⟨out, e, ?_, fun n => ?_⟩
  · rw [List.forall₂_nil_left_iff] at h2
    exact h2
  · rw [h1]
    constructor
    · rintro ⟨a, b, _⟩
      exact ⟨a, b⟩
    · rintro ⟨a, b⟩
      exact ⟨a, b, fun h => R.input.nokey (h ▸ a)⟩

/-! ### C220 -/

/-- C220, what happens: when the equalization ends with a KeyError, the run ends without error and writes every input row,
without any statistic. -/
theorem C220_key_error (statOf : String → List Val → Except PyErr Cell) (lineType : String) (p : AggParams) (f : Frame)
    (fields : List String) (hon : p.eventEqual = "True") (hf : (lineType, fields) ∈ removedFields)
    (hlt : lineType = "sal1l2" → ∀ n ∈ f.cols, n ∉ anomalyNames.map Prod.fst) (hn : f.cols.Nodup)
    (he : p.equalize f = .error .keyError) :
    ∃ out, sumStatRun statOf lineType p f = .ok out ∧
      (∀ n, n ∈ out.cols ↔ n ∈ f.cols ∧ n ∉ fields ∧ n ≠ "equalize") ∧
      List.Forall₂ (fun r o => ∀ n v, n ∈ out.cols → HasCell f r n v → HasCell out o n v) f.rows out.rows := by
  obtain ⟨fields', hl, hff⟩ := removedFields_lookup hf
  have hnd := (sumFields_nodup hl).1
  unfold sumStatRun
  rw [hl, sumRename_id hlt]
  have e2 : sumRunSteps statOf lineType p ⟨f.cols, f.rows⟩ = (f.numbered, some .keyError) := by
    unfold sumRunSteps
    rw [if_pos (by rw [hon]; decide)]
    have : p.equalize ⟨f.cols, f.rows⟩ = .error .keyError := he
    rw [this]
  simp only [e2]
  obtain ⟨out, e, h1, h2⟩ := drop_written (f := f) (g := f.numbered.frame) fields fields' rfl hn hnd hff
  refine ⟨out, e, h1, ?_⟩
  rw [numbered_frame] at h2
  exact h2

/-- The statistic of the examples: the position of the model in the list A, B. -/
def exModelStat (s : String) (r : List Val) : Except PyErr Cell :=
  if s = "me" then .ok (if cellAt r 2 = .str "A" then some 1 else some 2) else .error .keyError

/-- A run that meets the hypotheses of `C219_rows`: the time that model B lacks is removed. -/
example : sumStatRun exModelStat "sl1l2" exRunParams exRunFrame =
    .ok ⟨["fcst_valid_beg", "fcst_lead", "model", "fcst_var", "stat_name", "stat_value"],
      [[.str "t1", .num 6 "6", .str "A", .str "TMP", .str "ME", .num 1 ""],
        [.str "t1", .num 6 "6", .str "B", .str "TMP", .str "ME", .num 2 ""],
        [.str "t3", .num 6 "6", .str "A", .str "TMP", .str "ME", .num 1 ""],
        [.str "t3", .num 6 "6", .str "B", .str "TMP", .str "ME", .num 2 ""]]⟩ := by
  decide +kernel

example : ∃ out, sumStatRun exModelStat "sl1l2" exRunParams exRunFrame = .ok out ∧ out.cols.Nodup := by
  classical
  obtain ⟨out, h1, h2, -⟩ := C219_rows exRun_input exRunKey exRun_key exModelStat "sl1l2"
    ["fbar", "ffbar", "fobar", "obar", "oobar", "total"] (by decide) (by decide) (by decide) (by decide) _ rfl (by
      intro h
      have h2 := equalize_kept exRun_input exRunKey exRun_key
      rw [h] at h2
      exact absurd h2 (by decide +kernel)) (by
      intro r hr
      obtain ⟨q, -, hr⟩ := List.mem_flatMap.mp hr
      have hr := List.mem_of_mem_filter hr
      have h4 : ∀ r ∈ exRunFrame.rows, r[4]? = some (.str "ME") := by decide
      exact ⟨"ME", _, ⟨4, by decide, by decide, h4 r hr⟩, rfl⟩)
  exact ⟨out, h1, h2⟩

/-- Two models without a common time. -/
def exApart : Frame :=
  { exRunFrame with rows := [[.str "t1", .num 6 "6", .str "A", .str "TMP", .str "ME"],
      [.str "t2", .num 6 "6", .str "B", .str "TMP", .str "ME"]] }

theorem exApart_input : OneAxisRun exApart exRunParams [] ("model", ["A", "B"]) (fun v => [v]) [] "TMP" ["ME"] [] where
  input := ⟨by unfold FrameWF; decide, exRun_input.input.nokey, exRun_input.input.valid, exRun_input.input.lead,
    exRun_input.input.indep⟩
  forecast := exRun_input.forecast
  statistic := exRun_input.statistic
  on := exRun_input.on
  series := exRun_input.series
  second := exRun_input.second
  fixed := exRun_input.fixed
  names := exRun_input.names
  columns := exRun_input.columns
  groups := exRun_input.groups
  texts := exRun_input.texts
  fcst := exRun_input.fcst
  pairs := exRun_input.pairs
  stats := exRun_input.stats
  indy := exRun_input.indy
  somestat := exRun_input.somestat
  distinct := exRun_input.distinct
  plain := exRun_input.plain

/-- A run that meets the hypotheses of `C219_none`. -/
example : exRunParams.equalize exApart = .ok ⟨exApart.cols, []⟩ ∧
    sumStatRun exModelStat "sl1l2" exRunParams exApart = .ok ⟨exApart.cols, []⟩ := by
  decide +kernel

theorem pos_unique {f : Frame} {name : String} {i j : ℕ} (h : f.cols[i]? = some name ∧ ∀ k < i, f.cols[k]? ≠ some name)
    (h' : f.cols[j]? = some name ∧ ∀ k < j, f.cols[k]? ≠ some name) : i = j := by
  rcases Nat.lt_trichotomy i j with hl | hl | hl
  · exact absurd h.1 (h'.2 i hl)
  · exact hl
  · exact absurd h'.1 (h.2 j hl)

/-- C220 fails: with a fixed variable that is no column of the data, the row of model A for a time that model B lacks is
written, though the run is to equalize, and no row has a statistic. -/
theorem C220_counterexample : ∃ (f : Frame) (p : AggParams) (out : Frame), p.eventEqual = "True" ∧
    sumStatRun exModelStat "sl1l2" p f = .ok out ∧
    (∃ r ∈ out.rows, HasCell out r "model" (.str "A") ∧ HasCell out r "fcst_valid_beg" (.str "t2")) ∧
    (¬ ∃ r ∈ f.rows, HasCell f r "model" (.str "B") ∧ HasCell f r "fcst_valid_beg" (.str "t2")) ∧
    p.axis₁.series = [("model", ["A", "B"])] ∧ "stat_value" ∉ out.cols := by
  refine ⟨exRunFrame, { exRunParams with fixed := [("vx_mask", [["FULL"]])] }, exRunFrame, rfl, by decide +kernel, ?_, ?_, rfl,
    by decide⟩
  · exact ⟨_, by simp [exRunFrame]; right; left; rfl, ⟨2, by decide, by decide, by decide⟩, ⟨0, by decide, by decide, by decide⟩⟩
  · rintro ⟨r, hr, h1, h2⟩
    have : ∀ r ∈ exRunFrame.rows, ¬ (r[2]? = some (.str "B") ∧ r[0]? = some (.str "t2")) := by decide
    refine this r hr ⟨?_, ?_⟩
    · obtain ⟨i, a, b, c⟩ := h1
      obtain rfl : i = 2 := pos_unique (f := exRunFrame) (name := "model") ⟨a, b⟩ ⟨by decide, by decide⟩
      exact c
    · obtain ⟨i, a, b, c⟩ := h2
      obtain rfl : i = 0 := pos_unique (f := exRunFrame) (name := "fcst_valid_beg") ⟨a, b⟩ ⟨by decide, by decide⟩
      exact c

end Metcalcpy.Props
