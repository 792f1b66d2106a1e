/-
C185  Every statistic of a line type is found by its name (false for the anomaly statistics of summaries).
-/
import Verif.Model.Dispatch
import Mathlib.Data.List.Basic

namespace Metcalcpy.Props
open Metcalcpy

/-- The statistics module of each line type of agg_stat. -/
def aggLineTypes : List (String × String) :=
  [("ctc", "ctc"), ("sl1l2", "sl1l2"), ("grad", "grad"), ("sal1l2", "sal1l2"), ("vl1l2", "vl1l2"), ("val1l2", "val1l2"),
   ("vcnt", "vcnt"), ("pct", "pstd"), ("nbr_cnt", "nbrcnt"), ("ecnt", "ecnt"), ("nbr_ctc", "nbrctc"), ("rps", "rps"), ("ssvar", "ssvar"),
   ("mctc", "mcts")]

/-- The statistics module of each line type of sum_stat. -/
def sumLineTypes : List (String × String) :=
  [("ctc", "ctc"), ("sl1l2", "sl1l2"), ("grad", "grad"), ("sal1l2", "sal1l2"), ("vl1l2", "vl1l2"), ("val1l2", "val1l2"),
   ("pct", "pstd"), ("nbrcnt", "nbrcnt"), ("ecnt", "ecnt"), ("nbrctc", "nbrctc"), ("rps", "rps")]

/-- The line types are those of the program. -/
example : sumLineTypes.map Prod.fst = sumFields.map Prod.fst := by decide

/-- C185: agg_stat finds for every statistic of every line type the function of that name in the module of the line type, and hands
True to it when it has a third parameter. -/
theorem C185_agg : ∀ lt ∈ aggLineTypes, ∀ f ∈ moduleFunctions lt.2,
    aggStatCall f.1 = .ok ⟨lt.2, f.1, if f.2 = 2 then none else some true⟩ := by
  decide +kernel

/-- C185 (what holds of summaries): the same for sum_stat and all line types but sal1l2, with False. -/
theorem C185_sum_partial : ∀ lt ∈ sumLineTypes, lt.1 ≠ "sal1l2" → ∀ f ∈ moduleFunctions lt.2,
    sumStatCall f.1 = .ok ⟨lt.2, f.1, if f.2 = 2 then none else some false⟩ := by
  decide +kernel

theorem findStat_unknown (imports : List String) (s : String) (h : ∀ m ∈ imports, ∀ f ∈ moduleFunctions m, f.1 ≠ s) :
    findStat imports s = .error .keyError := by
  have e : imports.reverse.filterMap (fun m => ((moduleFunctions m).lookup s).map fun k => (m, k)) = [] := by
    rw [List.filterMap_eq_nil_iff]
    intro m hm
    have : (moduleFunctions m).lookup s = none := by
      rw [List.lookup_eq_none_iff]
      intro p hp
      have := h m (by simpa using hm) p hp
      simpa using fun e => this e.symm
    rw [this]
    rfl
  unfold findStat
  rw [e]

/-- C185: a name that no imported module defines is a KeyError, in both programs. -/
theorem C185_unknown (s : String) :
    ((∀ m ∈ aggStatImports, ∀ f ∈ moduleFunctions m, f.1 ≠ s) → aggStatCall s = .error .keyError) ∧
    ((∀ m ∈ sumStatImports, ∀ f ∈ moduleFunctions m, f.1 ≠ s) → sumStatCall s = .error .keyError) := by
  constructor
  · intro h
    unfold aggStatCall
    rw [findStat_unknown _ _ h]
    rfl
  · intro h
    unfold sumStatCall
    rw [findStat_unknown _ _ h]
    rfl

example : ∀ m ∈ aggStatImports, ∀ f ∈ moduleFunctions m, f.1 ≠ "baggs" := by decide +kernel

/-- The function of a summary by its name; `body` is what the found function computes. -/
def sumDispatch (body : FoundStat → List Val → Except PyErr Cell) (stat : String) (r : List Val) : Except PyErr Cell := do
  let c ← sumStatCall stat
  body c r

theorem dropColumn_cols (f g : Frame) (name : String) (h : dropColumn f name = .ok g) : ∀ c ∈ g.cols, c ∈ f.cols := by
  unfold dropColumn at h
  cases hi : f.idx? name with
  | none => rw [hi] at h; simp at h
  | some i =>
    rw [hi] at h
    have := Except.ok.inj h
    subst this
    intro c hc
    exact List.mem_of_mem_eraseIdx hc

theorem dropFields_cols (cols : List String) (fields : List String) (f g : Frame)
    (h : fields.foldlM (fun g name => if name ∈ cols then dropColumn g name else .ok g) f = .ok g) : ∀ c ∈ g.cols, c ∈ f.cols := by
  induction fields generalizing f with
  | nil =>
    have : f = g := Except.ok.inj h
    subst this
    exact fun c hc => hc
  | cons n ns ih =>
    rw [List.foldlM_cons] at h
    by_cases hn : n ∈ cols
    · rw [if_pos hn] at h
      cases hd : dropColumn f n with
      | error e => rw [hd] at h; exact absurd h (by simp [bind, Except.bind])
      | ok f1 =>
        rw [hd] at h
        intro c hc
        exact dropColumn_cols f f1 n hd c (ih f1 h c hc)
    · rw [if_neg hn] at h
      exact ih f h

theorem sumRename_keeps (lt c x : String) (hx : x = "stat_name" ∨ x = "stat_value") : sumRename lt c = x ↔ c = x := by
  unfold sumRename
  by_cases h : lt = "sal1l2"
  · rw [if_pos h]
    split <;> rcases hx with rfl | rfl <;> simp
  · rw [if_neg h]

/-- C185 is false for summaries of sal1l2: no statistic of that line type is known, and whatever the functions compute, a table
of such rows (anomaly correlations here) is written without any value. -/
theorem C185_sal1l2_counterexample :
    (∀ f ∈ moduleFunctions "sal1l2", sumStatCall f.1 = .error .keyError) ∧
    ∀ (body : FoundStat → List Val → Except PyErr Cell) (f : IFrame) (indyVar : String) (indyVals : List String) (k : ℕ) (out : Frame),
      f.cols.findIdx? (· == "stat_name") = some k → "stat_value" ∉ f.cols →
      (∀ r ∈ f.rows, cellAt r.2 k = .str "ANOM_CORR") →
      sumStat (sumDispatch body) ⟨"sal1l2", indyVar, indyVals, some [], some []⟩ f = .ok out → "stat_value" ∉ out.cols := by
  refine ⟨by decide +kernel, ?_⟩
  intro body f indyVar indyVals k out hname hval hrows h
  unfold sumStat at h
  have hl : sumFields.lookup "sal1l2" = some ["total", "fbar", "obar", "fobar", "ffbar", "oobar"] := by decide
  simp only [hl] at h
  set f0 : IFrame := ⟨f.cols.map (sumRename "sal1l2"), f.rows⟩ with hf0
  have hv0 : "stat_value" ∉ f0.cols := by
    intro hm
    obtain ⟨c, hc, e⟩ := List.mem_map.1 hm
    exact hval (((sumRename_keeps _ c _ (Or.inr rfl)).1 e) ▸ hc)
  have hk : (⟨f0.cols, []⟩ : Frame).col "stat_name" = .ok k := by
    have : (f.cols.map (sumRename "sal1l2")).findIdx? (· == "stat_name") = some k := by
      rw [List.findIdx?_map, ← hname]
      congr 1
      funext c
      have := sumRename_keeps "sal1l2" c "stat_name" (Or.inl rfl)
      rw [Bool.eq_iff_iff]
      simp only [Function.comp, beq_iff_eq]
      exact this
    unfold Frame.col Frame.idx?
    rw [show (⟨f0.cols, []⟩ : Frame).cols = f.cols.map (sumRename "sal1l2") from rfl, this]
  have hag : ∀ g : IFrame, aggregateSpecial ⟨"sal1l2", indyVar, indyVals, some [], some []⟩ [] g = .ok g := by
    intro g
    unfold aggregateSpecial
    rw [if_neg (by simp [sumAggregates])]
  have hsteps : sumSteps (sumDispatch body) ⟨"sal1l2", indyVar, indyVals, some [], some []⟩ f0 = (f0, none) ∨
      sumSteps (sumDispatch body) ⟨"sal1l2", indyVar, indyVals, some [], some []⟩ f0 = (f0, some .keyError) := by
    unfold sumSteps
    by_cases hr : f0.rows.isEmpty
    · rw [if_pos hr]; exact Or.inl rfl
    · rw [if_neg hr]
      simp only [hag]
      unfold processRows
      cases hr' : f0.rows with
      | nil => rw [hr'] at hr; simp at hr
      | cons r rs =>
        have hrow : rowValue (sumDispatch body) f0.cols r.2 = .error .keyError := by
          unfold rowValue
          rw [hk]
          have := hrows r (by have : r ∈ f0.rows := by rw [hr']; exact List.mem_cons_self
                              exact this)
          simp only [bind, Except.bind, this]
          have hlow : lower "ANOM_CORR" = "anom_corr" := by decide +kernel
          rw [hlow]
          unfold sumDispatch
          have : sumStatCall "anom_corr" = .error .keyError := by decide +kernel
          rw [this]
          rfl
        right
        unfold processLoop
        rw [hrow]
  have h : (do
      let g ← ["total", "fbar", "obar", "fobar", "ffbar", "oobar"].foldlM
        (fun g name => if name ∈ f0.cols then dropColumn g name else .ok g) f0.frame
      if "equalize" ∈ g.cols then dropColumn g "equalize" else .ok g : Except PyErr Frame) = .ok out := by
    rcases hsteps with e | e <;> rw [hf0] at e <;> rw [e] at h <;> exact h
  simp only [bind, Except.bind] at h
  cases hd : ["total", "fbar", "obar", "fobar", "ffbar", "oobar"].foldlM
      (fun g name => if name ∈ f0.cols then dropColumn g name else .ok g) f0.frame with
  | error e => rw [hd] at h; simp at h
  | ok g =>
    rw [hd] at h
    have hg := dropFields_cols f0.cols _ f0.frame g hd
    simp only at h
    by_cases he : "equalize" ∈ g.cols
    · rw [if_pos he] at h
      intro hm
      exact hv0 (hg _ (dropColumn_cols g out _ h _ hm))
    · rw [if_neg he] at h
      have := Except.ok.inj h
      subst this
      exact fun hm => hv0 (hg _ hm)

/-- A table of sal1l2 rows meeting the hypotheses; a value is written for none of them. -/
def anomSummary : IFrame where
  cols := ["stat_name", "total", "fabar", "oabar", "foabar", "ffabar", "ooabar"]
  rows := [(0, [.str "ANOM_CORR", .num 10 "10", .num 1 "1.0", .num 1 "1.0", .num 2 "2.0", .num 3 "3.0", .num 3 "3.0"])]

example (body : FoundStat → List Val → Except PyErr Cell) :
    sumStat (sumDispatch body) ⟨"sal1l2", "fcst_lead", [], some [], some []⟩ anomSummary = .ok ⟨["stat_name"], [[.str "ANOM_CORR"]]⟩ := by
  rfl

end Metcalcpy.Props
