/-
C18  Group aggregation of partial sums is the total-weighted mean and is associative.
C19  Group aggregation of contingency tables adds the counts (false of the code).
-/
import Verif.Model.SeriesSums
import Verif.Spec.SeriesSums
import Verif.Lemmas.Prepare
import Mathlib.Tactic.FieldSimp
import Mathlib.Data.List.Nodup

namespace Metcalcpy.Props
open Metcalcpy Spec

theorem nansumProd_eq (ws : List ℚ) (xs : List Cell) :
    nansumProd xs (ws.map some) = (List.zipWith (fun w x => w * x.getD 0) ws xs).sum := by
  unfold nansumProd
  induction ws generalizing xs with
  | nil => simp
  | cons w ws ih =>
    cases xs with
    | nil => simp
    | cons x xs =>
      have := ih xs
      cases x with
      | none => simp only [List.map_cons, List.zipWith_cons_cons, List.sum_cons]
                rw [← this]; simp [mulCell]
      | some x => simp only [List.map_cons, List.zipWith_cons_cons, List.sum_cons]
                  rw [← this]; simp [mulCell, mul_comm]

theorem weightedField_ok {t : Table} {ws : List ℚ} {c : String} {xs : List Cell} (hr : t.rows ≠ [])
    (hw : CompleteColumn t "total" ws) (h0 : ws.sum ≠ 0) (hc : IsColumn t c xs) :
    weightedField t (sumColumn t "total") c = .ok (some (weightedMean ws xs)) := by
  rw [sumColumn_of_complete hr hw]
  simp [weightedField, columnData_eq_some_iff.mpr hc, columnData_eq_some_iff.mpr hw, divTotal, h0,
    nansumProd_eq, weightedMean]

theorem mapM_ok {α β : Type} (f : α → Except PyErr β) (g : α → β) (l : List α)
    (h : ∀ a ∈ l, f a = .ok (g a)) : l.mapM f = .ok (l.map g) := by
  induction l with
  | nil => rfl
  | cons a l ih =>
    rw [List.mapM_cons, h a (by simp), ih fun b hb => h b (by simp [hb])]
    rfl

/-- The line types whose aggregated row uses the same field names. -/
def SameNames (lineType : String) : Prop :=
  lineType = "sl1l2" ∨ lineType = "vl1l2" ∨ lineType = "val1l2" ∨ lineType = "grad"

theorem sameNames_cols {lt : String} (h : SameNames lt) :
    meanColumns lt = some ((partialSumFields lt).map fun c => (c, c)) ∧ "total" ∉ partialSumFields lt ∧
      (partialSumFields lt).Nodup ∧ lt ≠ "ctc" ∧ lt ≠ "nbrctc" := by
  rcases h with rfl | rfl | rfl | rfl <;> exact ⟨rfl, by decide, by decide, by decide, by decide⟩

/-- C18: the group is replaced by one row with the summed total and, under the same names, the
total-weighted means of the fields. -/
theorem C18_weighted_means_partial (lt : String) (h : SameNames lt) (t : Table) (ws : List ℚ)
    (x : String → List Cell) (G : Group lt t ws x) :
    calcSeriesSums lt t = some (.ok
      { cols := "total" :: partialSumFields lt
        rows := [some ws.sum :: (partialSumFields lt).map fun c => some (weightedMean ws (x c))] }) := by
  obtain ⟨hc, -, -, n1, n2⟩ := sameNames_cols h
  simp only [calcSeriesSums, n1, n2, or_self, if_false, hc, Option.map_some, seriesMeans]
  rw [mapM_ok _ (fun c => some (weightedMean ws (x c.2)))]
  · simp [bind, Except.bind, pure, Except.pure, sumColumn_of_complete G.rows_ne G.total, Function.comp_def]
  · intro c hc
    simp only [List.mem_map] at hc
    obtain ⟨d, hd, rfl⟩ := hc
    exact weightedField_ok G.rows_ne G.total G.total_ne (G.field d hd)

theorem wsum_append (w1 w2 : List ℚ) (x1 x2 : List Cell) (h : w1.length = x1.length) :
    (List.zipWith (fun w (x : Cell) => w * x.getD 0) (w1 ++ w2) (x1 ++ x2)).sum =
      (List.zipWith (fun w (x : Cell) => w * x.getD 0) w1 x1).sum +
      (List.zipWith (fun w (x : Cell) => w * x.getD 0) w2 x2).sum := by
  rw [List.zipWith_append h, List.sum_append]

/-- Columns of stacked tables are the stacked columns. -/
theorem isColumn_stack (cols : List String) (c : String) (gs : List (Table × List Cell))
    (hne : gs ≠ []) (h : ∀ g ∈ gs, g.1.cols = cols ∧ IsColumn g.1 c g.2) :
    IsColumn ⟨cols, (gs.map fun g => g.1.rows).flatten⟩ c (gs.map Prod.snd).flatten := by
  obtain ⟨g0, hg0⟩ := List.exists_mem_of_ne_nil gs hne
  obtain ⟨i, h1, h2, -⟩ := (h g0 hg0).2
  rw [(h g0 hg0).1] at h1 h2
  refine ⟨i, h1, h2, ?_⟩
  have hidx : (⟨cols, []⟩ : Table).colIdx? c = some i := colIdx?_eq_some.mpr ⟨h1, h2⟩
  have : ∀ gs : List (Table × List Cell), (∀ g ∈ gs, g.1.cols = cols ∧ IsColumn g.1 c g.2) →
      ((gs.map fun g => g.1.rows).flatten).map (fun r => r[i]?) = ((gs.map Prod.snd).flatten).map some := by
    intro gs
    induction gs with
    | nil => simp
    | cons g gs ih =>
      intro h
      obtain ⟨e, j, j1, j2, j3⟩ := h g (by simp)
      rw [e] at j1 j2
      have hj : (⟨cols, []⟩ : Table).colIdx? c = some j := colIdx?_eq_some.mpr ⟨j1, j2⟩
      have hij : i = j := by rw [hidx] at hj; simpa using hj
      subst hij
      simp only [List.map_cons, List.flatten_cons, List.map_append, j3]
      rw [ih fun g' hg' => h g' (by simp [hg'])]
  exact this gs h

/-- Weighted mean of weighted means. -/
theorem weightedMean_flatten (gs : List (List ℚ × List Cell)) (hl : ∀ g ∈ gs, g.1.length = g.2.length)
    (h0 : ∀ g ∈ gs, g.1.sum ≠ 0) :
    weightedMean (gs.map fun g => g.1.sum) (gs.map fun g => some (weightedMean g.1 g.2)) =
      weightedMean (gs.map Prod.fst).flatten (gs.map Prod.snd).flatten := by
  have key : (List.zipWith (fun w (x : Cell) => w * x.getD 0) (gs.map fun g => g.1.sum)
      (gs.map fun g => some (weightedMean g.1 g.2))).sum =
      (List.zipWith (fun w (x : Cell) => w * x.getD 0) (gs.map Prod.fst).flatten
        (gs.map Prod.snd).flatten).sum := by
    induction gs with
    | nil => simp
    | cons g gs ih =>
      simp only [List.map_cons, List.flatten_cons, List.zipWith_cons_cons, List.sum_cons]
      rw [wsum_append _ _ _ _ (hl g (by simp)), ← ih (fun g' hg' => hl g' (by simp [hg']))
        (fun g' hg' => h0 g' (by simp [hg']))]
      congr 1
      have := h0 g (by simp)
      simp only [Option.getD_some, weightedMean]
      field_simp
  have hs : (gs.map fun g => g.1.sum).sum = ((gs.map Prod.fst).flatten).sum := by
    rw [List.sum_flatten, List.map_map]; rfl
  unfold weightedMean
  rw [hs, ← key]
  rfl

/-- One group with its data, as used by the two-stage theorem. -/
structure Part where
  table : Table
  ws : List ℚ
  x : String → List Cell

/-- C18: aggregating the groups first and then the aggregated rows gives the same row as aggregating all
rows at once. -/
theorem C18_two_stage_partial (lt : String) (h : SameNames lt) (cols : List String) (ps : List Part)
    (hne : ps ≠ []) (hG : ∀ p ∈ ps, p.table.cols = cols ∧ Group lt p.table p.ws p.x)
    (htot : ((ps.map fun p => p.ws).flatten).sum ≠ 0)
    (outs : List Table) (houts : ps.map (fun p => calcSeriesSums lt p.table) =
      outs.map fun o => some (.ok o)) :
    calcSeriesSums lt ⟨"total" :: partialSumFields lt, (outs.map fun o => o.rows).flatten⟩ =
      calcSeriesSums lt ⟨cols, (ps.map fun p => p.table.rows).flatten⟩ := by
  obtain ⟨-, hnt, hnd, -, -⟩ := sameNames_cols h
  -- the stage one results
  have houts' : outs = ps.map fun p =>
      ({ cols := "total" :: partialSumFields lt
         rows := [some p.ws.sum :: (partialSumFields lt).map fun c => some (weightedMean p.ws (p.x c))] } :
        Table) := by
    have e1 : ps.map (fun p => calcSeriesSums lt p.table) = (ps.map fun p =>
      ({ cols := "total" :: partialSumFields lt
         rows := [some p.ws.sum :: (partialSumFields lt).map fun c => some (weightedMean p.ws (p.x c))] } :
        Table)).map fun o => some (.ok o) := by
      rw [List.map_map]
      apply List.map_congr_left
      intro p hp
      exact C18_weighted_means_partial lt h _ _ _ (hG p hp).2
    rw [houts] at e1
    refine List.map_injective_iff.mpr ?_ e1
    intro a b hab
    simpa using hab
  have hrows : (outs.map fun o => o.rows).flatten = ps.map fun p =>
      some p.ws.sum :: (partialSumFields lt).map fun c => some (weightedMean p.ws (p.x c)) := by
    rw [houts']
    simp only [List.map_map, Function.comp_def]
    clear * -
    induction ps with
    | nil => rfl
    | cons p ps ih => simp [ih]
  have hlen : ∀ p ∈ ps, ∀ c ∈ partialSumFields lt, p.ws.length = (p.x c).length := by
    intro p hp c hc
    have e1 := IsColumn.length ((hG p hp).2.field c hc)
    have e2 := IsColumn.length (hG p hp).2.total
    simp only [List.length_map] at e2
    omega
  have G2 : Group lt ⟨"total" :: partialSumFields lt, (outs.map fun o => o.rows).flatten⟩
      (ps.map fun p => p.ws.sum) (fun c => ps.map fun p => some (weightedMean p.ws (p.x c))) := by
    refine ⟨?_, ?_, ?_, ?_⟩
    · simp only [hrows]; simpa using hne
    · refine ⟨0, by simp, by simp, ?_⟩
      simp only [hrows, List.map_map]
      apply List.map_congr_left
      intro p _
      simp
    · rw [List.sum_flatten, List.map_map] at htot
      exact htot
    · intro c hc
      obtain ⟨i, hi, e⟩ := List.mem_iff_getElem.mp hc
      refine ⟨i + 1, by simp [List.getElem?_eq_getElem hi, e], ?_, ?_⟩
      · intro j hj
        cases j with
        | zero => simp only [List.getElem?_cons_zero, ne_eq, Option.some.injEq]
                  rintro rfl; exact hnt hc
        | succ j =>
          have hji : j < i := by omega
          have hjl : j < (partialSumFields lt).length := by omega
          rw [List.getElem?_cons_succ, List.getElem?_eq_getElem hjl]
          intro e'
          rw [← e, Option.some.injEq] at e'
          exact absurd ((List.Nodup.getElem_inj_iff hnd).mp e') (by omega)
      · simp only [hrows, List.map_map]
        apply List.map_congr_left
        intro p _
        simp [List.getElem?_eq_getElem hi, e]
  have G1 : Group lt ⟨cols, (ps.map fun p => p.table.rows).flatten⟩
      (ps.map fun p => p.ws).flatten (fun c => (ps.map fun p => p.x c).flatten) := by
    refine ⟨?_, ?_, htot, ?_⟩
    · obtain ⟨p, hp⟩ := List.exists_mem_of_ne_nil ps hne
      have := (hG p hp).2.rows_ne
      simp only [ne_eq, List.flatten_eq_nil_iff, List.mem_map, not_forall]
      exact ⟨_, ⟨p, hp, rfl⟩, this⟩
    · have := isColumn_stack cols "total" (ps.map fun p => (p.table, p.ws.map some))
        (by simpa using hne) (by
          intro g hg
          obtain ⟨p, hp, rfl⟩ := List.mem_map.mp hg
          exact ⟨(hG p hp).1, (hG p hp).2.total⟩)
      simp only [List.map_map, Function.comp_def] at this
      unfold CompleteColumn
      rw [List.map_flatten, List.map_map]
      exact this
    · intro c hc
      have := isColumn_stack cols c (ps.map fun p => (p.table, p.x c))
        (by simpa using hne) (by
          intro g hg
          obtain ⟨p, hp, rfl⟩ := List.mem_map.mp hg
          exact ⟨(hG p hp).1, (hG p hp).2.field c hc⟩)
      simpa only [List.map_map, Function.comp_def] using this
  rw [C18_weighted_means_partial lt h _ _ _ G2, C18_weighted_means_partial lt h _ _ _ G1]
  have hs : (ps.map fun p => p.ws.sum).sum = ((ps.map fun p => p.ws).flatten).sum := by
    rw [List.sum_flatten, List.map_map]; rfl
  have hm : ∀ c ∈ partialSumFields lt,
      weightedMean (ps.map fun p => p.ws.sum) (ps.map fun p => some (weightedMean p.ws (p.x c))) =
        weightedMean (ps.map fun p => p.ws).flatten (ps.map fun p => p.x c).flatten := by
    intro c hc
    have := weightedMean_flatten (ps.map fun p => (p.ws, p.x c))
      (by intro g hg; obtain ⟨p, hp, rfl⟩ := List.mem_map.mp hg; exact hlen p hp c hc)
      (by intro g hg; obtain ⟨p, hp, rfl⟩ := List.mem_map.mp hg; exact (hG p hp).2.total_ne)
    simpa only [List.map_map, Function.comp_def] using this
  simp only [hs]
  congr 4
  congr 1
  apply List.map_congr_left
  intro c hc
  rw [hm c hc]

/-- C18, error case: a group without any total cannot be aggregated (TypeError). -/
theorem C18_no_rows (lt : String) (h : SameNames lt) (t : Table) (hr : t.rows = [])
    (htot : "total" ∈ t.cols) (hc : ∀ c ∈ partialSumFields lt, c ∈ t.cols) :
    calcSeriesSums lt t = some (.error .typeError) := by
  obtain ⟨hm, -, -, n1, n2⟩ := sameNames_cols h
  have cd : ∀ c ∈ t.cols, columnData t c = some [] := by
    intro c hc
    obtain ⟨cells, h1, h2⟩ := columnData_exists (t := t) (by intro r; simp [hr]) hc
    rw [hr] at h2
    simp at h2
    rw [h1, h2]
  have hs : sumColumn t "total" = none := by simp [sumColumn, cd _ htot]
  have hne : partialSumFields lt ≠ [] := by rcases h with rfl | rfl | rfl | rfl <;> decide
  simp only [calcSeriesSums, n1, n2, or_self, if_false, hm, Option.map_some, seriesMeans]
  cases hp : partialSumFields lt with
  | nil => exact absurd hp hne
  | cons c cs =>
    have : weightedField t (sumColumn t "total") c = .error .typeError := by
      simp [weightedField, cd _ htot, cd _ (hc c (by simp [hp])), divTotal, hs]
    simp [List.mapM_cons, this, bind, Except.bind]

/-- SAL1L2: the means are right but are stored under the SL1L2 names, so the result cannot be aggregated
a second time: C18 is false for SAL1L2. -/
theorem C18_sal1l2_counterexample :
    ∃ t out, Group "sal1l2" t [1, 3] (fun _ => [some 1, some 2]) ∧
      calcSeriesSums "sal1l2" t = some (.ok out) ∧
      (∀ c ∈ partialSumFields "sal1l2", c ∉ out.cols) ∧
      calcSeriesSums "sal1l2" out = some (.error .keyError) := by
  refine ⟨⟨["total", "fabar", "oabar", "foabar", "ffabar", "ooabar"],
    [[some 1, some 1, some 1, some 1, some 1, some 1], [some 3, some 2, some 2, some 2, some 2, some 2]]⟩,
    ⟨["total", "fbar", "obar", "fobar", "ffbar", "oobar"],
      [[some 4, some (7/4), some (7/4), some (7/4), some (7/4), some (7/4)]]⟩, ?_, ?_, by decide, ?_⟩
  · refine ⟨by simp, ⟨0, rfl, by simp, rfl⟩, by norm_num, ?_⟩
    intro c hc
    simp only [partialSumFields, List.mem_cons, List.not_mem_nil, or_false] at hc
    rcases hc with rfl | rfl | rfl | rfl | rfl
    · exact ⟨1, rfl, by decide, rfl⟩
    · exact ⟨2, rfl, by decide, rfl⟩
    · exact ⟨3, rfl, by decide, rfl⟩
    · exact ⟨4, rfl, by decide, rfl⟩
    · exact ⟨5, rfl, by decide, rfl⟩
  · decide +kernel
  · decide +kernel

/-- A concrete group for the hypotheses above. -/
def exGrad : Table :=
  ⟨["model", "total", "fgbar", "ogbar", "mgbar", "egbar"],
   [[none, some 1, some 1, some 2, none, some 4], [none, some 3, some 5, some 2, some 1, some 0]]⟩

example : Group "grad" exGrad [1, 3] (fun c =>
    if c = "fgbar" then [some 1, some 5] else if c = "ogbar" then [some 2, some 2]
    else if c = "mgbar" then [none, some 1] else [some 4, some 0]) := by
  refine ⟨by simp [exGrad], ⟨1, rfl, by simp [exGrad], rfl⟩, by norm_num, ?_⟩
  intro c hc
  simp only [partialSumFields, List.mem_cons, List.not_mem_nil, or_false] at hc
  rcases hc with rfl | rfl | rfl | rfl
  · exact ⟨2, rfl, by decide, by decide +kernel⟩
  · exact ⟨3, rfl, by decide, by decide +kernel⟩
  · exact ⟨4, rfl, by decide, by decide +kernel⟩
  · exact ⟨5, rfl, by decide, by decide +kernel⟩

/-! ### C19 -/

/-- C19 is false: all four counts become the sum of the first column of the frame. -/
theorem C19_ctc_counterexample :
    ∃ t out, CompleteColumn t "fy_oy" [1, 2] ∧ CompleteColumn t "fn_on" [5, 6] ∧
      CompleteColumn t "total" [10, 12] ∧ calcSeriesSums "ctc" t = some (.ok out) ∧
      CompleteColumn out "fy_oy" [22] ∧ CompleteColumn out "fn_on" [22] := by
  refine ⟨⟨["total", "fy_oy", "fy_on", "fn_oy", "fn_on"],
    [[some 10, some 1, some 2, some 2, some 5], [some 12, some 2, some 2, some 2, some 6]]⟩,
    ⟨["total", "fy_oy", "fy_on", "fn_oy", "fn_on"], [[some 22, some 22, some 22, some 22, some 22]]⟩,
    ⟨1, rfl, by decide, rfl⟩, ⟨4, rfl, by decide, rfl⟩, ⟨0, rfl, by decide, rfl⟩, by decide +kernel,
    ⟨1, rfl, by decide, rfl⟩, ⟨4, rfl, by decide, rfl⟩⟩

/-- C19, what does hold: the total is the sum of the totals, and every count column equals the sum of the
first column.  Missing: the counts themselves. -/
theorem C19_ctc_total_partial (lt : String) (hlt : lt = "ctc" ∨ lt = "nbrctc") (t : Table)
    (first : String) (cs : List String) (hcols : t.cols = first :: cs) (fs ns : List ℚ) (hr : t.rows ≠ [])
    (hf : CompleteColumn t first fs) (hn : CompleteColumn t "total" ns) :
    ∃ out, calcSeriesSums lt t = some (.ok out) ∧ CompleteColumn out "total" [ns.sum] ∧
      ∀ c ∈ ["fy_oy", "fy_on", "fn_oy", "fn_on"], CompleteColumn out c [fs.sum] := by
  have h1 : t.rows.mapM (fun r => r[0]?) = some (fs.map some) := by
    have := columnData_eq_some_iff.mpr hf
    unfold columnData Table.colIdx? at this
    rw [hcols] at this
    simpa [List.findIdx?_cons] using this
  have hne : fs ≠ [] := by
    rintro rfl
    have := IsColumn.length hf
    simp at this
    exact hr (List.eq_nil_of_length_eq_zero this.symm)
  have h2 : ((fs.map some).all (Option.isNone (α := ℚ))) = false := by
    cases fs with
    | nil => exact absurd rfl hne
    | cons => simp
  refine ⟨_, by simp only [calcSeriesSums, if_pos hlt, Except.ok.injEq]; rfl, ?_, ?_⟩
  · refine ⟨0, rfl, by simp, ?_⟩
    simp [seriesSumsCtc, sumColumn_of_complete hr hn]
  · intro c hc
    have hval : (seriesSumsCtc t).rows = [[some ns.sum, some fs.sum, some fs.sum, some fs.sum,
        some fs.sum]] := by
      simp only [seriesSumsCtc, h1, h2, sumColumn_of_complete hr hn]
      simp
    simp only [List.mem_cons, List.not_mem_nil, or_false] at hc
    unfold CompleteColumn IsColumn
    rw [hval]
    rcases hc with rfl | rfl | rfl | rfl
    · exact ⟨1, rfl, by simp only [seriesSumsCtc]; decide, rfl⟩
    · exact ⟨2, rfl, by simp only [seriesSumsCtc]; decide, rfl⟩
    · exact ⟨3, rfl, by simp only [seriesSumsCtc]; decide, rfl⟩
    · exact ⟨4, rfl, by simp only [seriesSumsCtc]; decide, rfl⟩

end Metcalcpy.Props
