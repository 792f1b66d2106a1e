/-
C198-C200: the complete run of the object (MODE) bootstrap (metcalcpy/agg_stat_bootstrap.py).
-/
import Verif.Model.ObjectRun
import Verif.Props.C45_ObjectBootstrap
import Verif.Props.C105_DerivedBoot
import Mathlib.Data.List.Sort
import Mathlib.Data.List.ProdSigma

namespace Metcalcpy.Props
open Metcalcpy

/-! ### Specification -/

/-- The cell of a row in a named column. -/
def valueIn (f : Frame) (name : String) (r : List Val) : Val := cellAt r (f.cols.idxOf name)

/-- A row belongs to an independent value and a point: its independent variable is the value, and every series variable
has one of the values its component stands for. -/
def InPoint (f : Frame) (c : ObjConfig) (i : String) (pt : List String) (r : List Val) : Prop :=
  partMatches (valueIn f c.indyVar r) i = true ∧
    ∀ q ∈ c.series.zip pt, ∃ p ∈ filterParts q.2, partMatches (valueIn f q.1.1 r) p = true

instance (f : Frame) (c : ObjConfig) (i : String) (pt : List String) : DecidablePred (InPoint f c i pt) := fun r => by
  unfold InPoint
  infer_instance

/-- A row is one of the forecast variable the user asked for. -/
def RequestedVar (f : Frame) (c : ObjConfig) (r : List Val) : Prop :=
  ∀ v ∈ c.fcstVars.head?, "fcst_var" ∈ f.cols → valueIn f "fcst_var" r = .str v

instance (f : Frame) (c : ObjConfig) : DecidablePred (RequestedVar f c) := fun r =>
  decidable_of_iff ((c.fcstVars.head?.all fun v => decide ("fcst_var" ∈ f.cols → valueIn f "fcst_var" r = .str v)) = true) (by
    unfold RequestedVar
    cases c.fcstVars.head? with
    | none => simp
    | some v => simp only [Option.all_some, decide_eq_true_eq, Option.mem_def, Option.some.injEq, forall_eq'])

/-- The case of a row: valid time and independent value. -/
def rowCase (f : Frame) (c : ObjConfig) (r : List Val) : String :=
  (valueIn f "fcst_valid" r).text ++ "#" ++ (valueIn f c.indyVar r).text

/-- The rows of an independent value and a point. -/
def rowsOf (f : Frame) (c : ObjConfig) (i : String) (pt : List String) : List (List Val) :=
  f.rows.filter fun r => decide (InPoint f c i pt r)

/-- The cases of some independent values: those of the rows of the requested forecast variable at any point. -/
def casesOf (f : Frame) (c : ObjConfig) (indys : List String) : List String :=
  indys.flatMap fun i => c.points.flatMap fun pt => ((rowsOf f c i pt).filter fun r => decide (RequestedVar f c r)).map (rowCase f c)

/-- Each value once, in increasing order. -/
def distinctSorted (l : List String) : List String := l.dedup.insertionSort (· ≤ ·)

/-- The columns the run needs. -/
structure HasColumns (f : Frame) (c : ObjConfig) : Prop where
  indy : c.indyVar ∈ f.cols
  valid : "fcst_valid" ∈ f.cols
  lead : "fcst_lead" ∈ f.cols
  series : ∀ p ∈ c.series, p.1 ∈ f.cols
  some_series : c.series ≠ []

/-! ### Rewriting the model -/

theorem objCol_of_mem {f : Frame} {name : String} (h : name ∈ f.cols) : f.col name = .ok (f.cols.idxOf name) := by
  unfold Frame.col
  cases e : f.idx? name with
  | none =>
    unfold Frame.idx? at e
    rw [List.findIdx?_eq_none_iff] at e
    simpa using e name h
  | some i => rw [(idx?_eq_idxOf e).1]

theorem product_length {α : Type*} : ∀ (ls : List (List α)) (p : List α), p ∈ product ls → p.length = ls.length
  | [], p, h => by simp [product] at h; simp [h]
  | l :: ls, p, h => by
    simp only [product, List.mem_flatMap, List.mem_map] at h
    obtain ⟨a, _, q, hq, rfl⟩ := h
    simp [product_length ls q hq]

/-- The filter of one series variable. -/
def seriesFilter (f : Frame) (q : (String × List String) × String) : List Val → Bool :=
  fun r => (filterParts q.2).any (partMatches (valueIn f q.1.1 r))

theorem objFilters_eq {f : Frame} {c : ObjConfig} (h : HasColumns f c) (pt : List String) :
    objFilters f c pt = .ok ((c.series.zip pt).map (seriesFilter f)) := by
  unfold objFilters
  apply mapM_except_ok
  intro q hq
  rw [objCol_of_mem (h.series _ (List.of_mem_zip hq).1)]
  rfl

theorem filters_ne_nil {f : Frame} {c : ObjConfig} (h : HasColumns f c) {pt : List String} (hpt : pt ∈ c.points) :
    ((c.series.zip pt).map (seriesFilter f)).isEmpty = false := by
  have hl := product_length _ _ hpt
  cases hs : c.series with
  | nil => exact absurd hs h.some_series
  | cons a l =>
    cases hp : pt with
    | nil => rw [hs, hp] at hl; simp at hl
    | cons b m => rfl

theorem indyRows_eq {f : Frame} {c : ObjConfig} (h : HasColumns f c) (i : String) :
    objIndyRows f c i = .ok (f.rows.filter fun r => partMatches (valueIn f c.indyVar r) i) := by
  unfold objIndyRows
  rw [objCol_of_mem h.indy]
  rfl

theorem rowsOf_eq (f : Frame) (c : ObjConfig) (i : String) (pt : List String) :
    (f.rows.filter fun r => partMatches (valueIn f c.indyVar r) i).filter
      (fun r => ((c.series.zip pt).map (seriesFilter f)).all (fun p => p r)) = rowsOf f c i pt := by
  unfold rowsOf
  rw [List.filter_filter]
  apply List.filter_congr
  intro r _
  rw [Bool.eq_iff_iff, decide_eq_true_eq]
  unfold InPoint
  simp only [Bool.and_eq_true, List.all_eq_true, List.mem_map, forall_exists_index, and_imp, forall_apply_eq_imp_iff₂,
    seriesFilter, List.any_eq_true]
  exact and_comm

theorem objPool_eq {f : Frame} {c : ObjConfig} (h : HasColumns f c) (i : String) (pool : List String) {pt : List String}
    (hpt : pt ∈ c.points) :
    objPool f c (f.rows.filter fun r => partMatches (valueIn f c.indyVar r) i) pool pt =
      .ok (distinctSorted (pool ++ ((rowsOf f c i pt).filter fun r => decide (RequestedVar f c r)).map (rowCase f c))) := by
  unfold objPool
  rw [objFilters_eq h]
  have hne := filters_ne_nil h hpt
  generalize hfs : (c.series.zip pt).map (seriesFilter f) = fs at hne
  have hsel : ∀ gs : List (List Val → Bool), gs.isEmpty = false →
      (∀ r, (gs.all fun p => p r) = ((fs.all fun p => p r) && decide (RequestedVar f c r))) →
      objMask gs (f.rows.filter fun r => partMatches (valueIn f c.indyVar r) i) =
        .ok ((rowsOf f c i pt).filter fun r => decide (RequestedVar f c r)) := by
    intro gs h1 h2
    unfold objMask
    rw [h1, ← rowsOf_eq, hfs, List.filter_filter (p := fun r => decide (RequestedVar f c r))]
    simp only [Bool.false_eq_true, if_false]
    congr 2
    funext r
    rw [h2, Bool.and_comm]
  have hreq : ∀ r, RequestedVar f c r ↔ ∀ v ∈ c.fcst f, valueIn f "fcst_var" r = .str v := by
    intro r
    unfold RequestedVar ObjConfig.fcst
    by_cases hv : "fcst_var" ∈ f.cols <;> simp [hv]
  cases hf : c.fcst f with
  | none =>
    simp only [bind, Except.bind]
    rw [hsel fs hne (by intro r; simp [hreq, hf]), objCol_of_mem h.valid, objCol_of_mem h.indy]
    rfl
  | some v =>
    have hv : "fcst_var" ∈ f.cols := by
      by_contra hv
      simp [ObjConfig.fcst, hv] at hf
    simp only [bind, Except.bind]
    rw [objCol_of_mem hv]
    simp only
    rw [hsel (fs ++ [fun r => isinTexts (cellAt r (f.cols.idxOf "fcst_var")) [v]]) (by simp) (by
      intro r
      rw [List.all_append]
      congr 1
      rw [Bool.eq_iff_iff]
      simp only [List.all_cons, List.all_nil, Bool.and_true, decide_eq_true_eq, hreq, hf, Option.mem_def, Option.some.injEq,
        forall_eq', valueIn, isinTexts]
      cases cellAt r (f.cols.idxOf "fcst_var") <;> simp), objCol_of_mem h.valid, objCol_of_mem h.indy]
    rfl

theorem distinctSorted_congr {a b : List String} (h : ∀ t, t ∈ a ↔ t ∈ b) : distinctSorted a = distinctSorted b := by
  unfold distinctSorted
  apply List.Perm.eq_of_pairwise (le := (· ≤ ·)) (fun _ _ _ _ h₁ h₂ => le_antisymm h₁ h₂)
    (List.pairwise_insertionSort _ _) (List.pairwise_insertionSort _ _)
  refine (List.perm_insertionSort _ _).trans (List.Perm.trans ?_ (List.perm_insertionSort _ _).symm)
  rw [List.perm_ext_iff_of_nodup (List.nodup_dedup _) (List.nodup_dedup _)]
  intro t
  rw [List.mem_dedup, List.mem_dedup]
  exact h t

theorem mem_distinctSorted (l : List String) (t : String) : t ∈ distinctSorted l ↔ t ∈ l := by
  unfold distinctSorted
  rw [(List.perm_insertionSort _ _).mem_iff, List.mem_dedup]

theorem distinctSorted_append (a b : List String) : distinctSorted (distinctSorted a ++ b) = distinctSorted (a ++ b) := by
  apply distinctSorted_congr
  intro t
  rw [List.mem_append, List.mem_append, mem_distinctSorted]

theorem pool_fold {f : Frame} {c : ObjConfig} (h : HasColumns f c) (i : String) : ∀ (pts : List (List String))
    (_ : ∀ pt ∈ pts, pt ∈ c.points) (l : List String),
    pts.foldlM (objPool f c (f.rows.filter fun r => partMatches (valueIn f c.indyVar r) i)) (distinctSorted l) =
      .ok (distinctSorted (l ++ pts.flatMap fun pt =>
        ((rowsOf f c i pt).filter fun r => decide (RequestedVar f c r)).map (rowCase f c)))
  | [], _, l => by simp [pure, Except.pure]
  | pt :: pts, hp, l => by
    rw [List.foldlM_cons, objPool_eq h i _ (hp pt (by simp)), distinctSorted_append]
    simp only [bind, Except.bind]
    rw [pool_fold h i pts (fun q hq => hp q (by simp [hq])), List.flatMap_cons, List.append_assoc]

/-- What the run computes for one independent value from a pool of cases. -/
def resultsOf {α : Type} (g : String → Frame → List String → α) (f : Frame) (c : ObjConfig) (sorted : List (List Val) → List (List Val))
    (i : String) (pool : List String) : List (ObjResult α) :=
  c.stats.flatMap fun s => c.points.map fun pt =>
    { indy := i, stat := s, point := pt, value := g (lower s) { f with rows := sorted (rowsOf f c i pt) } pool,
      nstats := (rowsOf f c i pt).length }

theorem sortData_perm_total {f : Frame} (hlead : "fcst_lead" ∈ f.cols) (hvalid : "fcst_valid" ∈ f.cols) :
    ∃ sorted : List (List Val) → List (List Val), (∀ rows, sortData f rows = .ok (sorted rows)) ∧
      ∀ rows, (sorted rows).Perm rows := by
  have ht : sortTime f.cols ∈ f.cols := by
    unfold sortTime
    split
    · assumption
    · exact hvalid
  refine ⟨fun rows => rows.insertionSort (fun a b => sortKey (f.cols.idxOf (sortTime f.cols)) (f.cols.idxOf "fcst_lead")
    (f.idx? "stat_name") a ≤ sortKey (f.cols.idxOf (sortTime f.cols)) (f.cols.idxOf "fcst_lead") (f.idx? "stat_name") b),
    fun rows => ?_, fun rows => List.perm_insertionSort _ _⟩
  unfold sortData
  rw [objCol_of_mem ht, objCol_of_mem hlead]
  rfl

theorem objIndy_eq {α : Type} {comp : String → Frame → List String → Except PyErr α} {g : String → Frame → List String → α}
    {f : Frame} {c : ObjConfig} (h : HasColumns f c) (hcomp : ∀ s rows pool, comp s { f with rows := rows } pool = .ok (g s { f with rows := rows } pool))
    {sorted : List (List Val) → List (List Val)} (hs : ∀ rows, sortData f rows = .ok (sorted rows))
    (pre : List String) (acc : List (ObjResult α)) (i : String) :
    objIndy comp f c (distinctSorted (casesOf f c pre), acc) i =
      .ok (distinctSorted (casesOf f c (pre ++ [i])),
        acc ++ resultsOf g f c sorted i (distinctSorted (casesOf f c (pre ++ [i])))) := by
  have hcases : casesOf f c (pre ++ [i]) = casesOf f c pre ++ c.points.flatMap fun pt =>
      ((rowsOf f c i pt).filter fun r => decide (RequestedVar f c r)).map (rowCase f c) := by
    simp [casesOf]
  unfold objIndy
  rw [indyRows_eq h]
  simp only [bind, Except.bind]
  rw [pool_fold h i c.points (fun _ h => h), ← hcases]
  simp only
  generalize distinctSorted (casesOf f c (pre ++ [i])) = pool
  rw [mapM_except_ok _ (fun q : String × List String =>
    ({ indy := i, stat := q.1, point := q.2, value := g (lower q.1) { f with rows := sorted (rowsOf f c i q.2) } pool,
       nstats := (rowsOf f c i q.2).length } : ObjResult α))]
  · simp only
    congr 3
    unfold resultsOf
    change List.map _ (List.product c.stats c.points) = _
    unfold List.product
    rw [List.map_flatMap]
    simp only [List.map_map]
    rfl
  · rintro ⟨s, pt⟩ hq
    have hpt : pt ∈ c.points := (List.mem_product.mp hq).2
    unfold objPoint
    rw [objFilters_eq h]
    simp only [bind, Except.bind, objMask, filters_ne_nil h hpt, Bool.false_eq_true, if_false, rowsOf_eq, hs, hcomp]

theorem objIndys_eq {α : Type} {comp : String → Frame → List String → Except PyErr α} {g : String → Frame → List String → α}
    {f : Frame} {c : ObjConfig} (h : HasColumns f c) (hcomp : ∀ s rows pool, comp s { f with rows := rows } pool = .ok (g s { f with rows := rows } pool))
    {sorted : List (List Val) → List (List Val)} (hs : ∀ rows, sortData f rows = .ok (sorted rows)) :
    ∀ (rest pre : List String) (acc : List (ObjResult α)),
    rest.foldlM (objIndy comp f c) (distinctSorted (casesOf f c pre), acc) =
      .ok (distinctSorted (casesOf f c (pre ++ rest)), acc ++ (List.range rest.length).flatMap fun n =>
        resultsOf g f c sorted (rest.getD n "") (distinctSorted (casesOf f c (pre ++ rest.take (n + 1)))))
  | [], pre, acc => by simp [pure, Except.pure]
  | i :: rest, pre, acc => by
    rw [List.foldlM_cons, objIndy_eq h hcomp hs]
    simp only [bind, Except.bind]
    rw [objIndys_eq h hcomp hs rest (pre ++ [i])]
    simp only [List.append_assoc, List.singleton_append, List.length_cons, List.range_succ_eq_map, List.flatMap_cons,
      List.getD_cons_zero, List.take_succ_cons, List.take_zero, List.flatMap_map, List.getD_cons_succ]

/-- The whole run with a computation that does not fail: the values, and the pool of cases each is computed with. -/
theorem objResults_eq {α : Type} {comp : String → Frame → List String → Except PyErr α} {g : String → Frame → List String → α}
    {f : Frame} {c : ObjConfig} (h : HasColumns f c) (hcomp : ∀ s rows pool, comp s { f with rows := rows } pool = .ok (g s { f with rows := rows } pool)) :
    ∃ sorted : List (List Val) → List (List Val), (∀ rows, (sorted rows).Perm rows) ∧
    objResults comp f c = .ok ((List.range c.indyVals.length).flatMap fun n =>
        resultsOf g f c sorted (c.indyVals.getD n "") (distinctSorted (casesOf f c (c.indyVals.take (n + 1))))) := by
  obtain ⟨sorted, hs, hp⟩ := sortData_perm_total h.lead h.valid
  refine ⟨sorted, hp, ?_⟩
  unfold objResults
  have := objIndys_eq h hcomp hs c.indyVals [] []
  have h0 : distinctSorted (casesOf f c []) = [] := by simp [casesOf, distinctSorted]
  rw [h0] at this
  rw [this]
  simp [bind, Except.bind]

/-! ### C198 -/

/-- The column 'case' holds the cases. -/
def CaseColumn (f : Frame) (c : ObjConfig) : Prop :=
  "case" ∈ f.cols ∧ ∀ r ∈ f.rows, valueIn f "case" r = .str (rowCase f c r)

theorem resampledRows_case {f : Frame} {c : ObjConfig} (hc : CaseColumn f c) (pool : List String) {rows : List (List Val)}
    (hr : ∀ r ∈ rows, r ∈ f.rows) :
    resampledRows (f.cols.idxOf "case") rows pool = rows.filter fun r => decide (rowCase f c r ∈ pool) := by
  unfold resampledRows
  apply List.filter_congr
  intro r h
  have := hc.2 r (hr r h)
  unfold valueIn at this
  rw [this]
  rfl

theorem rowsOf_mem {f : Frame} {c : ObjConfig} {i : String} {pt : List String} {r : List Val} (h : r ∈ rowsOf f c i pt) :
    r ∈ f.rows := List.mem_of_mem_filter h

/-- C198 (extent): with num_iterations = 1 the value of an independent value, a statistic and a point is the statistic of
those rows of the point whose case is also the case of a row of the requested forecast variable, at any point and at this
or an earlier independent value.  Rows of other forecast variables are counted. -/
theorem C198_extent {α : Type} (statOf : String → Frame → Except PyErr α) (g : String → List (List Val) → α) (f : Frame)
    (c : ObjConfig) (h : HasColumns f c) (hc : CaseColumn f c)
    (hstat : ∀ s rows, statOf s { f with rows := rows } = .ok (g s rows))
    (hperm : ∀ s l l', l.Perm l' → g s l = g s l') :
    objResults (objValue statOf) f c = .ok ((List.range c.indyVals.length).flatMap fun n =>
      c.stats.flatMap fun s => c.points.map fun pt =>
        { indy := c.indyVals.getD n "", stat := s, point := pt,
          value := g (lower s) ((rowsOf f c (c.indyVals.getD n "") pt).filter fun r =>
            decide (rowCase f c r ∈ casesOf f c (c.indyVals.take (n + 1)))),
          nstats := (rowsOf f c (c.indyVals.getD n "") pt).length }) := by
  obtain ⟨sorted, hs, he⟩ := objResults_eq (comp := objValue statOf)
    (g := fun s fr pool => g s (resampledRows (f.cols.idxOf "case") fr.rows pool)) h (by
      intro s rows pool
      unfold objValue
      have : (({ f with rows := rows } : Frame).col "case") = .ok (f.cols.idxOf "case") :=
        objCol_of_mem (f := { f with rows := rows }) hc.1
      rw [this]
      exact hstat s _)
  rw [he]
  congr 1
  apply List.flatMap_congr
  intro n _
  unfold resultsOf
  apply List.flatMap_congr
  intro s _
  apply List.map_congr_left
  intro pt _
  congr 1
  apply hperm
  rw [resampledRows_case hc]
  · simp only [mem_distinctSorted]
    exact (hs _).filter _
  · intro r hr
    exact rowsOf_mem ((hs _).mem_iff.mp hr)

theorem case_mem {f : Frame} {c : ObjConfig} {i : String} {pt : List String} {indys : List String} (hi : i ∈ indys)
    (hpt : pt ∈ c.points) {r : List Val} (hr : r ∈ rowsOf f c i pt) (hq : RequestedVar f c r) :
    rowCase f c r ∈ casesOf f c indys := by
  unfold casesOf
  rw [List.mem_flatMap]
  refine ⟨i, hi, ?_⟩
  rw [List.mem_flatMap]
  refine ⟨pt, hpt, List.mem_map_of_mem ?_⟩
  rw [List.mem_filter]
  exact ⟨hr, by simpa using hq⟩

/-- C198 (partial: the data hold rows of the requested forecast variable only, for instance because none was requested): with
num_iterations = 1 the value of every independent value, statistic and point is the statistic of exactly the rows of that
point, and `nstats` is their number. -/
theorem C198_value_partial {α : Type} (statOf : String → Frame → Except PyErr α) (g : String → List (List Val) → α)
    (f : Frame) (c : ObjConfig) (h : HasColumns f c) (hc : CaseColumn f c)
    (hstat : ∀ s rows, statOf s { f with rows := rows } = .ok (g s rows))
    (hperm : ∀ s l l', l.Perm l' → g s l = g s l') (hq : ∀ r ∈ f.rows, RequestedVar f c r) :
    objResults (objValue statOf) f c = .ok (c.indyVals.flatMap fun i => c.stats.flatMap fun s => c.points.map fun pt =>
        { indy := i, stat := s, point := pt, value := g (lower s) (rowsOf f c i pt), nstats := (rowsOf f c i pt).length }) := by
  rw [C198_extent statOf g f c h hc hstat hperm]
  congr 1
  have hmap : c.indyVals = (List.range c.indyVals.length).map fun n => c.indyVals.getD n "" := by
    apply List.ext_getElem
    · simp
    · intro n h1 h2
      simp [List.getD_eq_getElem?_getD, List.getElem?_eq_getElem h1]
  conv_rhs => rw [hmap]
  rw [List.flatMap_map]
  apply List.flatMap_congr
  intro n hn
  rw [List.mem_range] at hn
  apply List.flatMap_congr
  intro s _
  apply List.map_congr_left
  intro pt hpt
  congr 2
  rw [List.filter_eq_self]
  intro r hr
  rw [decide_eq_true_eq]
  apply case_mem (i := c.indyVals.getD n "") _ hpt hr (hq r (rowsOf_mem hr))
  rw [List.getD_eq_getElem _ _ hn, List.mem_take_iff_getElem]
  exact ⟨n, by omega, rfl⟩

theorem foldlM_map_eq {σ α β : Type*} (g : σ → β → Except PyErr σ) (k : α → β) : ∀ (l : List α) (s : σ),
    (l.map k).foldlM g s = l.foldlM (fun s a => g s (k a)) s
  | [], s => rfl
  | a :: l, s => by
    rw [List.map_cons, List.foldlM_cons, List.foldlM_cons]
    congr 1
    funext s'
    exact foldlM_map_eq g k l s'

/-- C198 (the output table, one statistic): every combination of series values and independent value has one row, and it holds
the statistic of the input rows of that combination. -/
theorem C198_table_partial {α : Type} (statOf : String → Frame → Except PyErr α) (g : String → List (List Val) → α)
    (f : Frame) (c : ObjConfig) (h : HasColumns f c) (hc : CaseColumn f c)
    (hstat : ∀ s rows, statOf s { f with rows := rows } = .ok (g s rows))
    (hperm : ∀ s l l', l.Perm l' → g s l = g s l') (hq : ∀ r ∈ f.rows, RequestedVar f c r) (s : String) (h1 : c.stats = [s])
    (hvals : ∀ p ∈ c.series, p.2.Nodup ∧ ∀ v ∈ p.2, PlainValue v) (hi : c.indyVals.Nodup) :
    ∃ rows, objAxis (objValue statOf) f c = .ok rows ∧
      rows.map Prod.fst = product (c.series.map Prod.snd ++ [c.indyVals, [s]]) ∧
      ∀ pt ∈ c.points, ∀ i ∈ c.indyVals, ∀ x, (pt ++ [i, s], x) ∈ rows → x = some (g (lower s) (rowsOf f c i pt)) := by
  obtain ⟨rows, e1, e2, e3⟩ := C45_one_statistic_partial (c.series.map Prod.snd) c.indyVals s (by
    intro l hl
    obtain ⟨p, hp, rfl⟩ := List.mem_map.mp hl
    exact hvals p hp) hi (fun i s pt => g (lower s) (rowsOf f c i pt))
  refine ⟨rows, ?_, e2, e3⟩
  unfold objAxis
  rw [C198_value_partial statOf g f c h hc hstat hperm hq]
  simp only [bind, Except.bind]
  rw [← e1]
  unfold objectBootstrap writes
  rw [h1]
  have : (c.indyVals.flatMap fun i => [s].flatMap fun s => c.points.map fun pt =>
        ({ indy := i, stat := s, point := pt, value := g (lower s) (rowsOf f c i pt), nstats := (rowsOf f c i pt).length } : ObjResult α)) =
      (c.indyVals.flatMap fun i => [s].flatMap fun s => (product (c.series.map Prod.snd)).map fun pt => (i, s, pt)).map
        fun w => { indy := w.1, stat := w.2.1, point := w.2.2, value := g (lower w.2.1) (rowsOf f c w.1 w.2.2),
                   nstats := (rowsOf f c w.1 w.2.2).length } := by
    simp only [List.map_flatMap, List.map_map]
    rfl
  rw [this, foldlM_map_eq]

/-- The column 'case' that the run adds. -/
theorem C198_case_column (f : Frame) (c : ObjConfig) (h : HasColumns f c) (hw : ∀ r ∈ f.rows, r.length = f.cols.length)
    (hn : c.indyVar ≠ "case") : ∃ f', withCase f c.indyVar = .ok f' ∧ HasColumns f' c ∧ CaseColumn f' c ∧
      f'.rows.length = f.rows.length ∧
      ∀ n < f.rows.length, ∀ name ∈ f.cols, name ≠ "case" → valueIn f' name (f'.rows.getD n []) = valueIn f name (f.rows.getD n []) := by
  unfold withCase
  rw [objCol_of_mem h.valid, objCol_of_mem h.indy]
  refine ⟨_, rfl, ?_⟩
  unfold Frame.setCol
  cases e : f.idx? "case" with
  | some k =>
    obtain ⟨hk, hmem⟩ := idx?_eq_idxOf e
    have hlt : k < f.cols.length := by rw [hk]; exact List.idxOf_lt_length_iff.mpr hmem
    have hsame : ∀ (name : String) (r : List Val) (x : Val), name ∈ f.cols → name ≠ "case" →
        cellAt (r.set k x) (f.cols.idxOf name) = cellAt r (f.cols.idxOf name) := by
      intro name r x h1 h2
      have hne : k ≠ f.cols.idxOf name := by
        intro hh
        rw [hk] at hh
        exact h2 ((List.idxOf_inj hmem).mp hh).symm
      unfold cellAt
      rw [List.getElem?_set_ne hne]
    refine ⟨⟨h.indy, h.valid, h.lead, h.series, h.some_series⟩, ⟨hmem, ?_⟩, by simp, ?_⟩
    · intro r' hr'
      simp only [List.mem_map] at hr'
      obtain ⟨r, hr, rfl⟩ := hr'
      have hv : cellAt (r.set k (Val.str (caseText (f.cols.idxOf "fcst_valid") (f.cols.idxOf c.indyVar) r))) k =
          Val.str (caseText (f.cols.idxOf "fcst_valid") (f.cols.idxOf c.indyVar) r) := by
        unfold cellAt
        rw [List.getElem?_set_self (by rw [hw r hr]; exact hlt)]
        rfl
      unfold valueIn rowCase valueIn
      simp only
      rw [← hk, hv, hsame _ _ _ h.valid (by decide), hsame _ _ _ h.indy hn]
      rfl
    · intro n hn name h1 h2
      unfold valueIn
      simp only [List.getD_eq_getElem?_getD, List.getElem?_map, List.getElem?_eq_getElem hn, Option.map_some, Option.getD_some]
      exact hsame _ _ _ h1 h2
  | none =>
    have hmem : "case" ∉ f.cols := by
      unfold Frame.idx? at e
      rw [List.findIdx?_eq_none_iff] at e
      intro hm
      simpa using e "case" hm
    have hsame : ∀ (name : String) (r : List Val) (x : Val), name ∈ f.cols → r.length = f.cols.length →
        cellAt (r ++ [x]) ((f.cols ++ ["case"]).idxOf name) = cellAt r (f.cols.idxOf name) := by
      intro name r x h1 h2
      unfold cellAt
      rw [List.idxOf_append_of_mem h1, List.getElem?_append_left (by rw [h2]; exact List.idxOf_lt_length_iff.mpr h1)]
    refine ⟨⟨by simp [h.indy], by simp [h.valid], by simp [h.lead], fun p hp => by simp [h.series p hp], h.some_series⟩,
      ⟨by simp, ?_⟩, by simp, ?_⟩
    · intro r' hr'
      simp only [List.mem_map] at hr'
      obtain ⟨r, hr, rfl⟩ := hr'
      have hidx : (f.cols ++ ["case"]).idxOf "case" = f.cols.length := by
        rw [List.idxOf_append_of_notMem hmem]
        simp
      unfold valueIn rowCase valueIn
      simp only
      rw [hsame _ _ _ h.valid (hw r hr), hsame _ _ _ h.indy (hw r hr), hidx]
      unfold cellAt
      rw [← hw r hr]
      simp [caseText, cellAt]
    · intro n hn name h1 h2
      unfold valueIn
      simp only [List.getD_eq_getElem?_getD, List.getElem?_map, List.getElem?_eq_getElem hn, Option.map_some, Option.getD_some]
      exact hsame _ _ _ h1 (hw _ (List.getElem_mem hn))

/-! The statistics of the package meet the hypotheses of C198. -/

theorem filterStep_rows (cols : List String) (name : String) (hn : name ∈ cols) (value : FVal) (rows : List (List Val)) :
    filterStep { cols := cols, rows := rows } name value =
      if ∀ r ∈ rows, (cellEq (cellAt r (cols.idxOf name)) value).isSome then
        .ok { cols := cols, rows := rows.filter fun r => cellEq (cellAt r (cols.idxOf name)) value == some true }
      else .error .badCell := by
  have hcol := objCol_of_mem (f := { cols := cols, rows := rows }) hn
  unfold Frame.col at hcol
  unfold filterStep
  cases e : ({ cols := cols, rows := rows } : Frame).idx? name with
  | none => rw [e] at hcol; simp at hcol
  | some i =>
    rw [e] at hcol
    simp only [Except.ok.injEq] at hcol
    subst hcol
    simp only
    generalize hg : (fun r : List Val => cellEq (cellAt r (cols.idxOf name)) value) = g
    have hm : ∀ rows : List (List Val), rows.mapM (fun r => (g r).map (fun b => (r, b))) =
        if ∀ r ∈ rows, (g r).isSome then some (rows.map fun r => (r, (g r).getD false)) else none := by
      intro rows
      induction rows with
      | nil => simp
      | cons r rows ih =>
        rw [List.mapM_cons, ih]
        cases hr : g r with
        | none => simp [hr]
        | some b =>
          by_cases hall : ∀ r ∈ rows, (g r).isSome
          · rw [if_pos hall, if_pos (by simpa [hr] using hall)]
            simp [hr]
          · simp only [hall, if_false, List.mem_cons, forall_eq_or_imp, and_false]
            rfl
    have hg' : ∀ r, cellEq (cellAt r (cols.idxOf name)) value = g r := fun r => by rw [← hg]
    simp only [hg', hm]
    by_cases hall : ∀ r ∈ rows, (g r).isSome
    · rw [if_pos hall, if_pos hall]
      simp only [List.filter_map, List.map_map]
      congr 2
      rw [show (Prod.fst ∘ fun r => (r, (g r).getD false)) = (id : List Val → List Val) from rfl, List.map_id]
      apply List.filter_congr
      intro r _
      simp only [Function.comp_apply]
      cases g r with
      | none => rfl
      | some b => cases b <;> rfl
    · rw [if_neg hall, if_neg hall]

theorem filterData_perm (cols : List String) : ∀ (fs : List (String × FVal)) (_ : ∀ p ∈ fs, p.1 ∈ cols) (l l' : List (List Val)),
    l.Perm l' → (∃ m m', filterData { cols := cols, rows := l } fs = .ok { cols := cols, rows := m } ∧
        filterData { cols := cols, rows := l' } fs = .ok { cols := cols, rows := m' } ∧ m.Perm m') ∨
      filterData { cols := cols, rows := l } fs = .error .badCell ∧ filterData { cols := cols, rows := l' } fs = .error .badCell
  | [], _, l, l', h => Or.inl ⟨l, l', rfl, rfl, h⟩
  | p :: fs, hp, l, l', h => by
    have hiff : (∀ r ∈ l, (cellEq (cellAt r (cols.idxOf p.1)) p.2).isSome) ↔
        ∀ r ∈ l', (cellEq (cellAt r (cols.idxOf p.1)) p.2).isSome := by
      constructor <;> intro hh r hr
      · exact hh r (h.mem_iff.mpr hr)
      · exact hh r (h.mem_iff.mp hr)
    unfold filterData
    rw [filterStep_rows cols p.1 (hp p (by simp)), filterStep_rows cols p.1 (hp p (by simp))]
    by_cases hall : ∀ r ∈ l, (cellEq (cellAt r (cols.idxOf p.1)) p.2).isSome
    · rw [if_pos hall, if_pos (hiff.mp hall)]
      exact filterData_perm cols fs (fun q hq => hp q (by simp [hq])) _ _ (h.filter _)
    · rw [if_neg hall, if_neg (fun hh => hall (hiff.mpr hh))]
      exact Or.inr ⟨rfl, rfl⟩

theorem nrow_perm (cols : List String) (fs : List (String × FVal)) (hfs : ∀ p ∈ fs, p.1 ∈ cols) :
    ∃ g : List (List Val) → Option ℚ, (∀ rows, nrowFiltered { cols := cols, rows := rows } fs = .ok (g rows)) ∧
      ∀ l l', l.Perm l' → g l = g l' := by
  refine ⟨fun rows => match filterData { cols := cols, rows := rows } fs with
    | .ok f' => some (f'.rows.length : ℚ)
    | .error _ => none, ?_, ?_⟩
  · intro rows
    unfold nrowFiltered
    rcases filterData_perm cols fs hfs rows rows (List.Perm.refl _) with ⟨m, m', h1, _, _⟩ | ⟨h1, _⟩ <;> simp only [h1]
  · intro l l' h
    rcases filterData_perm cols fs hfs l l' h with ⟨m, m', h1, h2, h3⟩ | ⟨h1, h2⟩
    · simp only [h1, h2, h3.length_eq]
    · simp only [h1, h2]

/-- C198 (its hypotheses): a ratio of counts, such as those of mode_ratio_statistics.py, is defined for all rows of a frame
that has the flag columns, and does not depend on the order of the rows. -/
theorem C198_ratio_statistics (f : Frame) (num den : List (String × ℤ)) (hnum : ∀ p ∈ num, p.1 ∈ f.cols)
    (hden : ∀ p ∈ den, p.1 ∈ f.cols) : ∃ g : List (List Val) → Option ℚ,
      (∀ rows, modeCount (.ratio num den) { f with rows := rows } = .ok (g rows)) ∧ ∀ l l', l.Perm l' → g l = g l' := by
  obtain ⟨a, ha, ha'⟩ := nrow_perm f.cols (num.map fun p => (p.1, .int p.2)) (by
    intro p hp
    obtain ⟨q, hq, rfl⟩ := List.mem_map.mp hp
    exact hnum q hq)
  obtain ⟨b, hb, hb'⟩ := nrow_perm f.cols (den.map fun p => (p.1, .int p.2)) (by
    intro p hp
    obtain ⟨q, hq, rfl⟩ := List.mem_map.mp hp
    exact hden q hq)
  refine ⟨fun rows => roundedQuot (a rows) (b rows), ?_, ?_⟩
  · intro rows
    unfold modeCount evalMode
    simp only [ha, hb, bind, Except.bind]
  · intro l l' h
    simp only [ha' l l' h, hb' l l' h]

/-- Four objects of one model: two forecast variables at one valid time. -/
def objFrame : Frame :=
  { cols := ["model", "fcst_var", "fcst_valid", "fcst_lead", "simple_flag", "matched_flag"]
    rows := [
      [.str "m1", .str "APCP", .str "t1", .num 12 "12", .num 1 "1", .num 1 "1"],
      [.str "m1", .str "APCP", .str "t1", .num 12 "12", .num 1 "1", .num 1 "1"],
      [.str "m1", .str "REFC", .str "t1", .num 12 "12", .num 1 "1", .num 0 "0"],
      [.str "m1", .str "REFC", .str "t1", .num 12 "12", .num 1 "1", .num 0 "0"]] }

def objConfig : ObjConfig :=
  { series := [("model", ["m1"])], indyVar := "fcst_lead", indyVals := ["12"], stats := ["RATIO_ASM_ASA"],
    fcstVars := ["APCP"] }

/-- C198 as stated is false: the objects of the other forecast variable are counted.  All objects of the requested variable are
matched, but the output says one half. -/
theorem C198_counterexample :
    objectRun (objValue fun _ fr => modeCount ModeRatio.asm_asa fr) objFrame objFrame false objConfig { objConfig with series := [] } =
      .ok [(["m1", "12", "RATIO_ASM_ASA"], some (some (1 / 2)))] ∧
    modeCount ModeRatio.asm_asa { objFrame with rows := objFrame.rows.filter fun r => decide (RequestedVar objFrame objConfig r) } =
      .ok (some 1) := by
  constructor <;> decide +kernel

/-- A run that meets all hypotheses of C198: two models, two leads; model m1 has both objects matched at lead 12. -/
def objGood : Frame :=
  { cols := ["model", "fcst_var", "fcst_valid", "fcst_lead", "simple_flag", "matched_flag", "case"]
    rows := [
      [.str "m1", .str "APCP", .str "t1", .num 12 "12", .num 1 "1", .num 1 "1", .str "t1#12"],
      [.str "m1", .str "APCP", .str "t2", .num 12 "12", .num 1 "1", .num 1 "1", .str "t2#12"],
      [.str "m1", .str "APCP", .str "t1", .num 24 "24", .num 1 "1", .num 0 "0", .str "t1#24"],
      [.str "m2", .str "APCP", .str "t1", .num 12 "12", .num 1 "1", .num 0 "0", .str "t1#12"]] }

def goodConfig : ObjConfig :=
  { series := [("model", ["m1", "m2"])], indyVar := "fcst_lead", indyVals := ["12", "24"], stats := ["RATIO_ASM_ASA"],
    fcstVars := ["APCP"] }

example : HasColumns objGood goodConfig ∧ CaseColumn objGood goodConfig ∧ (∀ r ∈ objGood.rows, RequestedVar objGood goodConfig r) ∧
    (rowsOf objGood goodConfig "12" ["m1"]).length = 2 ∧ (∀ p ∈ goodConfig.series, p.2.Nodup ∧ ∀ v ∈ p.2, PlainValue v) := by
  refine ⟨⟨by decide, by decide, by decide, by decide, by decide⟩, ⟨by decide, by decide +kernel⟩, by decide +kernel,
    by decide +kernel, ?_⟩
  unfold PlainValue goodConfig
  decide +kernel

/-! ### C199 -/

/-- C199 (extent): the pool of cases from which the bootstrap of an independent value draws consists of the cases of that
value and of all values listed before it. -/
theorem C199_pool {α : Type} (comp : String → Frame → List String → Except PyErr α) (g : String → Frame → List String → α)
    (f : Frame) (c : ObjConfig) (h : HasColumns f c)
    (hcomp : ∀ s rows pool, comp s { f with rows := rows } pool = .ok (g s { f with rows := rows } pool)) :
    ∃ sorted : List (List Val) → List (List Val), (∀ rows, (sorted rows).Perm rows) ∧
    objResults comp f c = .ok ((List.range c.indyVals.length).flatMap fun n =>
      c.stats.flatMap fun s => c.points.map fun pt =>
        { indy := c.indyVals.getD n "", stat := s, point := pt,
          value := g (lower s) { f with rows := sorted (rowsOf f c (c.indyVals.getD n "") pt) }
            (distinctSorted (casesOf f c (c.indyVals.take (n + 1)))),
          nstats := (rowsOf f c (c.indyVals.getD n "") pt).length }) :=
  objResults_eq h hcomp

/-- C199 (partial: one independent value): the cases are drawn from those of the value itself. -/
theorem C199_single_partial {α : Type} (comp : String → Frame → List String → Except PyErr α)
    (g : String → Frame → List String → α) (f : Frame) (c : ObjConfig) (h : HasColumns f c) (i : String) (hi : c.indyVals = [i])
    (hcomp : ∀ s rows pool, comp s { f with rows := rows } pool = .ok (g s { f with rows := rows } pool)) :
    ∃ sorted : List (List Val) → List (List Val), (∀ rows, (sorted rows).Perm rows) ∧
    objResults comp f c = .ok (c.stats.flatMap fun s => c.points.map fun pt =>
        { indy := i, stat := s, point := pt,
          value := g (lower s) { f with rows := sorted (rowsOf f c i pt) } (distinctSorted (casesOf f c [i])),
          nstats := (rowsOf f c i pt).length }) := by
  obtain ⟨sorted, hs, he⟩ := C199_pool comp g f c h hcomp
  refine ⟨sorted, hs, ?_⟩
  rw [he, hi]
  simp [List.range_succ_eq_map]

theorem draws_ok (pool : List String) (ids : List (List ℕ)) (h : ∀ row ∈ ids, ∀ j ∈ row, j < pool.length) :
    generateDistributions pool 1 ids = .ok (ids.map fun row => row.map fun j => pool.getD j "") := by
  unfold generateDistributions
  simp only [gt_iff_lt, lt_self_iff_false, if_false]
  apply mapM_except_ok
  intro row hrow
  unfold takeIdx
  apply mapM_except_ok
  intro j hj
  have := h row hrow j hj
  rw [List.getElem?_eq_getElem this, List.getD_eq_getElem _ _ this]

theorem interval_no_keyError (dist : List Cell) (v : Option ℚ) (alpha : ℚ) (m : CiMethod) :
    catchKeyError (confidenceInterval dist v alpha m) = confidenceInterval dist v alpha m := by
  have hp : ∀ (xs : List ℚ) (q : ℚ), percentile xs q ≠ .error .keyError := by
    intro xs q
    unfold percentile
    split
    · simp
    · dsimp only
      split <;> simp
  have hc : ∀ (xs : List Cell) (q : ℚ), percentileCells xs q ≠ .error .keyError := by
    intro xs q
    unfold percentileCells
    split
    · simp
    · exact hp _ _
  have hm : ∀ x : Except PyErr BootResult, x ≠ .error .keyError → catchKeyError x = x := by
    intro x hx
    unfold catchKeyError
    split
    · exact absurd rfl hx
    · rfl
  apply hm
  cases v with
  | none => simp [confidenceInterval]
  | some v =>
    cases m with
    | pivotal =>
      simp only [confidenceInterval, bind, Except.bind]
      have h1 := hc dist (1 - alpha / 2)
      have h2 := hc dist (alpha / 2)
      revert h1 h2
      cases percentileCells dist (1 - alpha / 2) <;> cases percentileCells dist (alpha / 2) <;> simp +contextual
    | perc =>
      simp only [confidenceInterval, bind, Except.bind]
      split
      · simp
      · have h1 := hp (dist.filterMap id) (alpha / 2)
        have h2 := hp (dist.filterMap id) (1 - alpha / 2)
        revert h1 h2
        cases percentile (dist.filterMap id) (alpha / 2) <;> cases percentile (dist.filterMap id) (1 - alpha / 2) <;> simp +contextual
    | other => simp [confidenceInterval]

/-- C199: given the pool, the value of a bootstrapped point is the statistic of all its rows, and every replicate is the
statistic of the rows whose case was drawn. -/
theorem C199_replicates (statOf : String → Frame → Except PyErr (Option ℚ)) (g : String → List (List Val) → Option ℚ) (m : CiMethod)
    (draw : String → Frame → List String → List (List ℕ)) (s : String) (f : Frame) (c : ObjConfig) (hc : CaseColumn f c)
    (hstat : ∀ s rows, statOf s { f with rows := rows } = .ok (g s rows)) (pool : List String)
    (hpool : ∀ r ∈ f.rows, rowCase f c r ∈ pool) (hd : ∀ row ∈ draw s f pool, ∀ j ∈ row, j < pool.length) :
    objBoot statOf m draw s f pool =
      confidenceInterval ((draw s f pool).map fun row =>
        g s (f.rows.filter fun r => decide (∃ j ∈ row, rowCase f c r = pool.getD j ""))) (g s f.rows) (1 / 20) m := by
  have hval : ∀ cases, objValue statOf s f cases = .ok (g s (f.rows.filter fun r => decide (rowCase f c r ∈ cases))) := by
    intro cases
    unfold objValue
    rw [objCol_of_mem hc.1, ← resampledRows_case hc cases (fun r h => h)]
    exact hstat s _
  unfold objBoot
  rw [objCol_of_mem hc.1]
  simp only [bind, Except.bind]
  rw [resampledRows_case hc pool (fun r h => h), hval, draws_ok pool _ hd]
  simp only
  rw [mapM_except_ok _ (fun cases => g s (f.rows.filter fun r => decide (rowCase f c r ∈ cases))) _ (fun x _ => hval x)]
  simp only
  rw [interval_no_keyError, List.map_map]
  have h1 : (f.rows.filter fun r => decide (rowCase f c r ∈ pool)) = f.rows := by
    rw [List.filter_eq_self]
    intro r hr
    simpa using hpool r hr
  have h2 : (f.rows.filter fun r => decide (rowCase f c r ∈ textCells f.rows)) = f.rows := by
    rw [List.filter_eq_self]
    intro r hr
    rw [decide_eq_true_eq]
    unfold textCells
    rw [List.mem_flatMap]
    refine ⟨r, hr, ?_⟩
    rw [List.mem_filterMap]
    have h3 := hc.2 r hr
    refine ⟨.str (rowCase f c r), ?_, rfl⟩
    rw [← h3]
    unfold valueIn cellAt
    unfold valueIn cellAt at h3
    cases e : r[f.cols.idxOf "case"]? with
    | none => rw [e] at h3; simp at h3
    | some x => simpa using List.mem_of_getElem? e
  rw [h1, h2]
  congr 2
  funext row
  simp only [Function.comp_apply, List.mem_map]
  congr 2
  funext r
  congr 1
  apply propext
  constructor
  · rintro ⟨j, hj, h⟩
    exact ⟨j, hj, h.symm⟩
  · rintro ⟨j, hj, h⟩
    exact ⟨j, hj, h.symm⟩

/-- Two leads with one valid time each. -/
def twoLeads : Frame :=
  { cols := ["model", "fcst_valid", "fcst_lead", "case"]
    rows := [[.str "m1", .str "t1", .num 12 "12", .str "t1#12"], [.str "m1", .str "t2", .num 24 "24", .str "t2#24"]] }

/-- C199 as stated is false: the bootstrap of the second lead also draws the cases of the first; a resample may even hold no
case of the second lead at all. -/
theorem C199_counterexample :
    objResults (fun _ _ pool => .ok pool) twoLeads
        { series := [("model", ["m1"])], indyVar := "fcst_lead", indyVals := ["12", "24"], stats := ["A"], fcstVars := [] } =
      .ok [{ indy := "12", stat := "A", point := ["m1"], value := ["t1#12"], nstats := 1 },
           { indy := "24", stat := "A", point := ["m1"], value := ["t1#12", "t2#24"], nstats := 1 }] := by
  decide +kernel

/-! ### C200 -/

/-- C200 as stated is false: a run with event equalization never writes a table. -/
theorem C200_counterexample {α : Type} (comp : String → Frame → List String → Except PyErr α) (f prev : Frame)
    (h : f.isEmpty = false) (c₁ c₂ : ObjConfig) : ∃ e, objectRun comp f prev true c₁ c₂ = .error e := by
  unfold objectRun
  rw [h]
  simp only [Bool.false_eq_true, if_false, if_true]
  cases aggStatEqz f prev true c₁.fcstVars c₂.fcstVars c₁.series c₂.series with
  | ok o => exact ⟨_, rfl⟩
  | error e => exact ⟨_, rfl⟩

/-- C200 (partial: without event equalization): the table of the first axis followed by that of the second. -/
theorem C200_axes_partial {α : Type} (comp : String → Frame → List String → Except PyErr α) (f prev g : Frame)
    (h : f.isEmpty = false) (c₁ c₂ : ObjConfig) (hg : withCase f c₁.indyVar = .ok g) (o₁ o₂ : List (List String × Option α))
    (h₁ : objAxis comp g c₁ = .ok o₁) (h₂ : objAxis comp g c₂ = .ok o₂) :
    objectRun comp f prev false c₁ c₂ = .ok (if c₂.series = [] then o₁ else o₁ ++ o₂) := by
  unfold objectRun
  rw [h]
  simp only [Bool.false_eq_true, if_false, bind, Except.bind, hg, h₁, h₂]
  by_cases hs : c₂.series = [] <;> simp [hs, pure, Except.pure]

end Metcalcpy.Props
