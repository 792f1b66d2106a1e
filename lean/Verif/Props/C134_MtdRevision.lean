/-
C134  The autocorrelation of revisions uses pairs of values of the same revision.
C135  The runs test of revisions is the test of the values joined revision after revision.
C136  The p-value of the autocorrelation of revisions.
-/
import Verif.Model.MtdRevision
import Verif.Spec.MtdRevision
import Verif.Props.C48_Runs
import Verif.Props.C49_Acf
import Verif.Props.C120_CorrTable

namespace Metcalcpy.Props
open Metcalcpy Spec

/-! ### Affine maps -/

/-- `q ↦ a q + b` on a cell. -/
def affCell (a b : ℚ) (c : Cell) : Cell := c.map fun q => a * q + b

theorem removeNone_aff (a b : ℚ) (x : List Cell) : removeNone (x.map (affCell a b)) = (removeNone x).map fun q => a * q + b := by
  unfold removeNone
  rw [List.filterMap_map, List.map_filterMap]
  rfl

theorem sum_aff (a b : ℚ) (l : List ℚ) : (l.map fun q => a * q + b).sum = a * l.sum + b * l.length := by
  induction l with
  | nil => simp
  | cons x l ih => simp only [List.map_cons, List.sum_cons, List.length_cons, ih]; push_cast; ring

theorem pyMean_aff (a b : ℚ) (l : List ℚ) : pyMean (l.map fun q => a * q + b) = (pyMean l).map fun q => a * q + b := by
  unfold pyMean
  by_cases h : l = []
  · subst h; rfl
  · rw [if_neg (by simpa using h), if_neg h]
    have h0 : (l.length : ℚ) ≠ 0 := by simpa using h
    simp only [Except.map, listMean, sum_aff, List.length_map]
    congr 1
    field_simp

theorem cellGet_aff (a b : ℚ) (x : List Cell) (i : ℕ) : cellGet (x.map (affCell a b)) i = affCell a b (cellGet x i) := by
  unfold cellGet
  rw [List.getElem?_map]
  rcases x[i]? with _ | _ | v <;> rfl

theorem acfTerm_aff (a b : ℚ) (x : List Cell) (k : ℕ) (m : ℚ) (i : ℕ) :
    acfTerm (x.map (affCell a b)) k (a * m + b) i = (acfTerm x k m i).map (a ^ 2 * ·) := by
  unfold acfTerm
  rw [cellGet_aff, cellGet_aff]
  rcases cellGet x (i + k) with _ | u <;> rcases cellGet x i with _ | v <;> simp [affCell]
  ring

theorem autocovariance_aff (a b : ℚ) (x : List Cell) (k : ℕ) (m : ℚ) :
    autocovariance (x.map (affCell a b)) k (a * m + b) = (autocovariance x k m).map (a ^ 2 * ·) := by
  unfold autocovariance
  have h : (List.range ((x.map (affCell a b)).length - k)).filterMap (acfTerm (x.map (affCell a b)) k (a * m + b)) =
      ((List.range (x.length - k)).filterMap (acfTerm x k m)).map (a ^ 2 * ·) := by
    rw [List.length_map, List.map_filterMap]
    apply List.filterMap_congr
    intro i _
    exact acfTerm_aff a b x k m i
  simp only []
  rw [h]
  generalize (List.range (x.length - k)).filterMap (acfTerm x k m) = ts
  rw [List.length_map, List.sum_map_mul_left, List.map_id']
  split
  · rfl
  · simp only [Except.map]; congr 1; ring

theorem acf_aff (a b : ℚ) (ha : a ≠ 0) (x : List Cell) (lag : Option ℤ) :
    acf (x.map (affCell a b)) "correlation" lag = acf x "correlation" lag := by
  unfold acf
  rw [List.length_map]
  split
  · rfl
  split
  · rfl
  rw [removeNone_aff, pyMean_aff]
  rcases pyMean (removeNone x) with e | m
  · rfl
  simp only [Except.map, bind, Except.bind]
  rw [autocovariance_aff]
  rcases h0 : autocovariance x 0 m with e | c0
  · rfl
  simp only [Except.map]
  have : acfEntry (x.map (affCell a b)) "correlation" (a * m + b) (a ^ 2 * c0) = acfEntry x "correlation" m c0 := by
    funext i
    unfold acfEntry
    rw [autocovariance_aff]
    rcases autocovariance x i m with e | c
    · rfl
    simp only [Except.map, bind, Except.bind, show ¬ ("correlation" : String) = "covariance" by decide, if_false, pyDivE]
    by_cases hc : c0 = 0
    · simp [hc]
    · rw [if_neg (by positivity), if_neg hc]
      congr 1
      field_simp
  rw [this]

theorem pyMedian_aff (a b : ℚ) (ha : 0 < a) (l : List ℚ) :
    pyMedian (l.map fun q => a * q + b) = (pyMedian l).map fun q => a * q + b := by
  unfold pyMedian
  by_cases h : l = []
  · subst h; rfl
  · rw [if_neg (by simpa using h), if_neg h]
    rw [← List.map_insertionSort (r := (· ≤ ·)) (s := (· ≤ ·)) (fun q => a * q + b) l (fun u _ v _ => by
      constructor
      · intro h; nlinarith
      · intro h; nlinarith)]
    have hl : (l.insertionSort (· ≤ ·)).length ≠ 0 := by simpa [List.length_insertionSort] using h
    generalize l.insertionSort (· ≤ ·) = s at *
    simp only [Except.map, List.length_map, List.getElem?_map]
    rw [List.getElem?_eq_getElem (show s.length / 2 < s.length by omega),
      List.getElem?_eq_getElem (show s.length / 2 - 1 < s.length by omega)]
    congr 1
    simp only [Option.map_some, Option.getD_some]
    split
    · rfl
    · ring

theorem runsCore_aff (phi : ℝ → ℝ) (a b : ℚ) (ha : 0 < a) (l : List ℚ) (t : ℚ) (alt : String) :
    runsCore phi (l.map fun q => a * q + b) (a * t + b) alt = runsCore phi l t alt := by
  unfold runsCore
  have h1 : (l.map fun q => a * q + b).filter (fun e => decide (e ≠ a * t + b)) =
      (l.filter fun e => decide (e ≠ t)).map fun q => a * q + b := by
    rw [List.filter_map]
    congr 1
    apply List.filter_congr
    intro q _
    simp only [Function.comp, ne_eq, add_left_inj, decide_not, Bool.not_eq_eq_eq_not, Bool.not_not]
    rw [Bool.eq_iff_iff]
    simp [ha.ne']
  have h2 : (fun q => signOf (a * t + b) (a * q + b)) = signOf t := by
    funext q
    unfold signOf
    have e : a * q + b - (a * t + b) = a * (q - t) := by ring
    rw [e]
    have p1 : a * (q - t) > 0 ↔ q - t > 0 := by constructor <;> intro h <;> nlinarith [mul_pos_iff_of_pos_left ha (b := q - t)]
    have p2 : a * (q - t) < 0 ↔ q - t < 0 := by
      constructor
      · intro h; by_contra hc; nlinarith [mul_nonneg ha.le (not_lt.mp hc)]
      · intro h; nlinarith
    simp only [p1, p2]
  have h3 : ((l.map fun q => a * q + b).filter (fun e => decide (e ≠ a * t + b))).map (signOf (a * t + b)) =
      (l.filter fun e => decide (e ≠ t)).map (signOf t) := by
    rw [h1, List.map_map, ← h2]; rfl
  simp only [h3]

theorem runsTest_aff (phi : ℝ → ℝ) (a b : ℚ) (ha : 0 < a) (x : List Cell) (alt : String) :
    runsTest phi (x.map (affCell a b)) alt "median" = runsTest phi x alt "median" := by
  unfold runsTest
  simp only [List.length_map, if_true, removeNone_aff, pyMedian_aff a b ha]
  split
  · rfl
  split
  · rfl
  rcases pyMedian (removeNone x) with e | t
  · rfl
  simp only [Except.map, bind, Except.bind, runsCore_aff phi a b ha]

/-- The centring has no effect. -/
theorem mtd_uncentred (phi : ℝ → ℝ) (rows : List (String × Cell)) (lag : Option ℤ) (h : rows ≠ []) :
    mtdRevisionStats phi true rows lag = (do
      let _ ← pyMean (removeNone (mtdData rows))
      let r ← (acf (mtdData rows) "correlation" lag >>= lastRounded)
      let w ← runsTest phi (mtdData rows) "left.sided" "median"
      .ok ⟨w.map fun res => npRound res.pValue 2, some (npRound (0.06270678 / Real.sqrt (mtdData rows).length) 2), r⟩) := by
  unfold mtdRevisionStats
  rw [if_neg (by simpa using h), if_neg (by simp)]
  dsimp only
  rcases pyMean (removeNone (mtdData rows)) with e | m
  · rfl
  have e : (mtdData rows).map (Option.map (· - m)) = (mtdData rows).map (affCell 1 (-m)) := by
    apply List.map_congr_left
    intro c _
    unfold affCell
    congr 1
    funext q
    ring
  simp only [bind, Except.bind, e, acf_aff 1 (-m) one_ne_zero, runsTest_aff phi 1 (-m) one_pos, List.length_map]
  rcases acf (mtdData rows) "correlation" lag with e | a <;> rfl

theorem mtdData_aff (a b : ℚ) (rows : List (String × Cell)) :
    mtdData (rows.map fun r => (r.1, affCell a b r.2)) = (mtdData rows).map (affCell a b) := by
  unfold mtdData
  rw [List.map_dropLast]
  congr 1
  have h1 : revisionIds (rows.map fun r => (r.1, affCell a b r.2)) = revisionIds rows := by
    unfold revisionIds
    rw [List.map_map]; rfl
  rw [h1, List.map_flatMap]
  congr 1
  funext id
  unfold revisionBlock
  rw [List.filter_map, List.map_map, List.map_append, List.map_map]
  rfl

/-- C134, C135: the statistics do not depend on the level and the unit of the values. -/
theorem C134_units (phi : ℝ → ℝ) (cols : Bool) (rows : List (String × Cell)) (lag : Option ℤ) (a b : ℚ) (ha : 0 < a) :
    mtdRevisionStats phi cols (rows.map fun r => (r.1, r.2.map fun q => a * q + b)) lag =
      mtdRevisionStats phi cols rows lag := by
  by_cases hr : rows = []
  · subst hr; rfl
  cases cols with
  | false =>
    unfold mtdRevisionStats
    simp only [if_true, ite_self]
  | true =>
    have e : (rows.map fun r => (r.1, r.2.map fun q => a * q + b)) = rows.map fun r => (r.1, affCell a b r.2) := rfl
    rw [e, mtd_uncentred _ _ _ (by simpa using hr), mtd_uncentred _ _ _ hr, mtdData_aff, removeNone_aff, pyMean_aff,
      acf_aff a b ha.ne', runsTest_aff phi a b ha, List.length_map]
    rcases pyMean (removeNone (mtdData rows)) with e | m <;> rfl

/-- C134, C135: the names of the revisions play no role. -/
theorem C134_names (phi : ℝ → ℝ) (cols : Bool) (rows : List (String × Cell)) (lag : Option ℤ) (g : String → String)
    (hg : Function.Injective g) :
    mtdRevisionStats phi cols (rows.map fun r => (g r.1, r.2)) lag = mtdRevisionStats phi cols rows lag := by
  have h : mtdData (rows.map fun r => (g r.1, r.2)) = mtdData rows := by
    unfold mtdData
    congr 1
    have h1 : revisionIds (rows.map fun r => (g r.1, r.2)) = (revisionIds rows).map g := by
      unfold revisionIds
      rw [List.map_map, List.map_reverse, ← List.dedup_map_of_injective hg, List.map_reverse, List.map_map]
      rfl
    rw [h1, List.flatMap_map]
    congr 1
    funext id
    unfold revisionBlock
    rw [List.filter_map, List.map_map]
    congr 2
    apply List.filter_congr
    intro r _
    simp only [Function.comp]
    rw [Bool.eq_iff_iff]
    simp [hg.eq_iff]
  unfold mtdRevisionStats
  rw [h, List.length_map]

/-! ### The separated data -/

theorem completePairs_cons (a b : Cell) (x y : List Cell) :
    completePairs (a :: x) (b :: y) = completePairs [a] [b] ++ completePairs x y := by
  unfold completePairs
  rw [← List.filterMap_append]
  rfl

/-- Consecutive present values. -/
def consPairs (l : List Cell) : List (ℚ × ℚ) := completePairs l l.tail

theorem consPairs_sep (A B : List Cell) : consPairs (A ++ none :: B) = consPairs A ++ consPairs B := by
  induction A with
  | nil =>
    cases B with
    | nil => rfl
    | cons b B =>
      simp only [consPairs, List.nil_append, List.tail_cons]
      rw [completePairs_cons]
      rfl
  | cons a A ih =>
    cases A with
    | nil =>
      simp only [consPairs, List.cons_append, List.nil_append, List.tail_cons] at ih ⊢
      rw [completePairs_cons, ih]
      cases a <;> rfl
    | cons a' A =>
      simp only [consPairs, List.cons_append, List.tail_cons] at ih ⊢
      rw [completePairs_cons, ih, completePairs_cons a a' (a' :: A) A, List.append_assoc]

theorem revisionBlock_eq (rows : List (String × Cell)) (id : String) : revisionBlock rows id = revisionValues rows id ++ [none] := by
  unfold revisionBlock revisionValues
  congr 2

theorem consPairs_blocks (rows : List (String × Cell)) (ids : List String) :
    consPairs (ids.flatMap (revisionBlock rows)) = ids.flatMap fun id => consPairs (revisionValues rows id) := by
  induction ids with
  | nil => rfl
  | cons i ids ih =>
    rw [List.flatMap_cons, List.flatMap_cons, revisionBlock_eq, List.append_assoc, List.singleton_append, consPairs_sep, ih]

theorem dropLast_sep (rows : List (String × Cell)) (h : rows ≠ []) :
    (revisionIds rows).flatMap (revisionBlock rows) = mtdData rows ++ [none] := by
  have hne : revisionIds rows ≠ [] := by
    obtain ⟨r, rows, rfl⟩ := List.exists_cons_of_ne_nil h
    intro e
    have : r.1 ∈ revisionIds (r :: rows) := by unfold revisionIds; simp
    rw [e] at this
    simp at this
  have e := List.dropLast_append_getLast hne
  have : (revisionIds rows).flatMap (revisionBlock rows) = (((revisionIds rows).dropLast).flatMap (revisionBlock rows) ++
      revisionValues rows ((revisionIds rows).getLast hne)) ++ [none] := by
    conv_lhs => rw [← e]
    rw [List.flatMap_append, List.flatMap_singleton, revisionBlock_eq, List.append_assoc]
  unfold mtdData
  rw [this, List.dropLast_concat]

theorem revisionIds_perm (rows : List (String × Cell)) : (revisionIds rows).Perm ((rows.map Prod.fst).dedup) := by
  unfold revisionIds
  rw [List.perm_ext_iff_of_nodup (List.nodup_reverse.mpr (List.nodup_dedup _)) (List.nodup_dedup _)]
  intro a
  simp

theorem consPairs_mtd (rows : List (String × Cell)) (h : rows ≠ []) : (consPairs (mtdData rows)).Perm (withinRevisions rows) := by
  have h1 : consPairs (mtdData rows) = (revisionIds rows).flatMap fun id => consPairs (revisionValues rows id) := by
    rw [← consPairs_blocks, dropLast_sep rows h, consPairs_sep]
    simp [consPairs, completePairs]
  rw [h1]
  exact (revisionIds_perm rows).flatMap_right _

theorem removeNone_mtd (rows : List (String × Cell)) (h : rows ≠ []) : removeNone (mtdData rows) = joinedRevisions rows := by
  have h1 : removeNone (mtdData rows) = removeNone ((revisionIds rows).flatMap (revisionBlock rows)) := by
    rw [dropLast_sep rows h]
    unfold removeNone
    rw [List.filterMap_append]
    simp
  rw [h1]
  unfold removeNone joinedRevisions
  rw [List.filterMap_flatMap]
  unfold revisionIds
  congr 1
  funext id
  rw [revisionBlock_eq, List.filterMap_append]
  simp

theorem group_perm {α : Type} [DecidableEq α] (rows : List (String × α)) (ids : List String) (hn : ids.Nodup)
    (hc : ∀ r ∈ rows, r.1 ∈ ids) : (ids.flatMap fun id => rows.filter fun r => decide (r.1 = id)).Perm rows := by
  rw [List.perm_iff_count]
  intro r
  rw [List.count_flatMap]
  by_cases hr : r ∈ rows
  · have key : ∀ l : List String, l.Nodup → (l.map (List.count r ∘ fun id => rows.filter fun r => decide (r.1 = id))).sum =
        if r.1 ∈ l then rows.count r else 0 := by
      intro l
      induction l with
      | nil => intro _; simp
      | cons i l ih =>
        intro hl
        rw [List.nodup_cons] at hl
        rw [List.map_cons, List.sum_cons, ih hl.2]
        simp only [Function.comp]
        by_cases hi : r.1 = i
        · subst hi
          rw [List.count_filter (by simp), if_neg hl.1, if_pos (by simp)]
          simp
        · rw [List.count_eq_zero.mpr (by simp [hi])]
          simp [hi]
    rw [key ids hn, if_pos (hc r hr)]
  · rw [List.count_eq_zero.mpr hr]
    apply List.sum_eq_zero
    intro x hx
    obtain ⟨i, _, rfl⟩ := List.mem_map.mp hx
    simp only [Function.comp]
    exact List.count_eq_zero.mpr (fun hm => hr (List.mem_of_mem_filter hm))

theorem joined_perm (rows : List (String × Cell)) : (joinedRevisions rows).Perm (presentValues rows) := by
  have hp := group_perm rows (revisionIds rows) (by
    unfold revisionIds; exact List.nodup_reverse.mpr (List.nodup_dedup _)) (fun r hr => by
      unfold revisionIds; simp only [List.mem_reverse, List.mem_dedup]
      exact List.mem_map_of_mem hr)
  have := hp.filterMap Prod.snd
  rw [List.filterMap_flatMap] at this
  unfold joinedRevisions presentValues
  have e : (fun id => (revisionValues rows id).filterMap _root_.id) =
      fun a => (rows.filter fun r => decide (r.1 = a)).filterMap Prod.snd := by
    funext id
    unfold revisionValues
    rw [List.filterMap_map]
    rfl
  rw [e]
  exact this

theorem mtd_length (rows : List (String × Cell)) (h : rows ≠ []) :
    (mtdData rows).length + 1 = rows.length + revisionCount rows := by
  have h1 := congrArg List.length (dropLast_sep rows h)
  rw [List.length_append, List.length_singleton] at h1
  rw [← h1, List.length_flatMap]
  have hp := group_perm rows (revisionIds rows) (by
    unfold revisionIds; exact List.nodup_reverse.mpr (List.nodup_dedup _)) (fun r hr => by
      unfold revisionIds; simp only [List.mem_reverse, List.mem_dedup]
      exact List.mem_map_of_mem hr)
  have hl := hp.length_eq
  rw [List.length_flatMap] at hl
  have hk : revisionCount rows = (revisionIds rows).length := by
    unfold revisionCount; exact (revisionIds_perm rows).length_eq.symm
  rw [← hl, hk]
  have key : ∀ l : List String, (l.map fun a => (revisionBlock rows a).length).sum =
      (l.map fun a => (rows.filter fun r => decide (r.1 = a)).length).sum + l.length := by
    intro l
    induction l with
    | nil => rfl
    | cons i l ih =>
      simp only [List.map_cons, List.sum_cons, List.length_cons, ih]
      have : (revisionBlock rows i).length = (rows.filter fun r => decide (r.1 = i)).length + 1 := by
        rw [revisionBlock_eq]; simp [revisionValues]
      rw [this]
      omega
  exact key _

theorem acf_terms (x : List Cell) (k : ℕ) (m : ℚ) : (List.range (x.length - k)).filterMap (acfTerm x k m) =
    (completePairs x (x.drop k)).map fun p => (p.1 - m) * (p.2 - m) := by
  have hz : x.zip (x.drop k) = (List.range (x.length - k)).map fun i => (cellGet x i, cellGet x (i + k)) := by
    apply List.ext_getElem
    · simp
    · intro i h1 h2
      simp only [List.length_map, List.length_range] at h2
      simp only [List.getElem_zip, List.getElem_drop, List.getElem_map, List.getElem_range, cellGet]
      rw [List.getElem?_eq_getElem (show i < x.length by omega), List.getElem?_eq_getElem (show i + k < x.length by omega)]
      simp [Nat.add_comm]
  unfold completePairs
  rw [hz, List.filterMap_map, List.map_filterMap]
  apply List.filterMap_congr
  intro i _
  unfold acfTerm
  simp only [Function.comp]
  rcases cellGet x (i + k) with _ | u <;> rcases cellGet x i with _ | v <;> simp
  ring

theorem completePairs_self (x : List Cell) : completePairs x x = (removeNone x).map fun a => (a, a) := by
  induction x with
  | nil => rfl
  | cons c x ih =>
    rw [completePairs_cons, ih]
    cases c <;> rfl

/-- C134 at lag 1: the reported value is the rounded quotient of two averages over all revisions: of the products of deviations
of consecutive values of the same revision, their number increased by one, and of the squared deviations.  No pair of
values of different revisions enters.  Missing: larger lags, in particular the default one, see the counterexample. -/
theorem C134_lag_one_partial (phi : ℝ → ℝ) (rows : List (String × Cell)) (s : MtdStats) (hr : rows ≠ [])
    (h : mtdRevisionStats phi true rows (some 1) = .ok s) :
    ∃ r, s.autoCorR = some r ∧
      let m := overallMean rows
      IsRounded ((((withinRevisions rows).map fun p => (p.1 - m) * (p.2 - m)).sum / ((withinRevisions rows).length + 1) /
        (((presentValues rows).map fun a => (a - m) ^ 2).sum / (presentValues rows).length) : ℚ)) 2 r := by
  rw [mtd_uncentred phi rows (some 1) hr, removeNone_mtd rows hr] at h
  have hp := joined_perm rows
  by_cases hj : joinedRevisions rows = []
  · rw [pyMean, if_pos hj] at h; simp [bind, Except.bind] at h
  have hm : listMean (joinedRevisions rows) = overallMean rows := by
    unfold listMean overallMean; rw [hp.sum_eq, hp.length_eq]
  have hn0 : ((presentValues rows).length : ℚ) ≠ 0 := by
    rw [← hp.length_eq]; simpa using hj
  have hlen0 : ¬ (mtdData rows).length = 0 := by
    intro e
    apply hj
    rw [← removeNone_mtd rows hr, List.length_eq_zero_iff.mp e]; rfl
  have hpm : pyMean (joinedRevisions rows) = .ok (overallMean rows) := by rw [pyMean, if_neg hj, hm]
  have c0 : autocovariance (mtdData rows) 0 (overallMean rows) =
      .ok (((presentValues rows).map fun a => (a - overallMean rows) ^ 2).sum / (presentValues rows).length) := by
    unfold autocovariance
    simp only [acf_terms, List.drop_zero, completePairs_self, removeNone_mtd rows hr, List.map_map, List.length_map]
    rw [hp.length_eq, if_neg (by
      rw [Nat.add_zero]; exact_mod_cast hn0)]
    congr 1
    rw [← (hp.map fun a => (a - overallMean rows) ^ 2).sum_eq]
    have : ((fun p : ℚ × ℚ => (p.1 - overallMean rows) * (p.2 - overallMean rows)) ∘ fun a => (a, a)) =
        fun a => (a - overallMean rows) ^ 2 := by funext a; simp [sq]
    rw [this]
    push_cast
    rw [add_zero]
    ring
  have c1 : autocovariance (mtdData rows) 1 (overallMean rows) =
      .ok (((withinRevisions rows).map fun p => (p.1 - overallMean rows) * (p.2 - overallMean rows)).sum /
        ((withinRevisions rows).length + 1)) := by
    unfold autocovariance
    have hc := consPairs_mtd rows hr
    simp only [acf_terms, List.drop_one]
    rw [show completePairs (mtdData rows) (mtdData rows).tail = consPairs (mtdData rows) from rfl,
      if_neg (by omega), List.length_map, hc.length_eq]
    congr 1
    rw [(hc.map _).sum_eq]
    push_cast
    ring
  rw [hpm] at h
  simp only [bind, Except.bind] at h
  unfold acf at h
  rw [if_neg (by decide), if_neg hlen0, removeNone_mtd rows hr, hpm] at h
  simp only [bind, Except.bind, c0] at h
  by_cases hl1 : (mtdData rows).length = 1
  · -- a single value has variance zero
    exfalso
    have hl : (joinedRevisions rows).length ≤ 1 := by
      rw [← removeNone_mtd rows hr]; unfold removeNone
      exact (List.length_filterMap_le _ _).trans hl1.le
    obtain ⟨v, hv⟩ : ∃ v, joinedRevisions rows = [v] := by
      match hh : joinedRevisions rows, hl with
      | [], _ => exact absurd hh hj
      | [v], _ => exact ⟨v, rfl⟩
    have hpv : presentValues rows = [v] := by
      rw [hv] at hp; exact List.perm_singleton.mp hp.symm
    have hz : (((presentValues rows).map fun a => (a - overallMean rows) ^ 2).sum / (presentValues rows).length : ℚ) = 0 := by
      unfold overallMean; rw [hpv]; simp
    rw [hz, hl1] at h
    simp [List.range_succ, acfEntry, c0, pyDivE, bind, Except.bind, pure, Except.pure, hz] at h
  have hmin : (min ((some 1 : Option ℤ).getD ((Nat.log 10 ((mtdData rows).length ^ 10) : ℕ) : ℤ))
      (((mtdData rows).length : ℤ) - 1) + 1).toNat = 2 := by
    simp only [Option.getD_some]; omega
  rw [hmin] at h
  rw [show List.range 2 = [0, 1] from rfl] at h
  simp only [List.mapM_cons, List.mapM_nil, acfEntry, c0, c1, bind, Except.bind,
    show ¬ ("correlation" : String) = "covariance" by decide, if_false, pyDivE] at h
  by_cases hz : (((presentValues rows).map fun a => (a - overallMean rows) ^ 2).sum / (presentValues rows).length : ℚ) = 0
  · simp [hz] at h
  · simp only [hz, if_false, pure, Except.pure, lastRounded] at h
    rcases hw : runsTest phi (mtdData rows) "left.sided" "median" with e | w
    · rw [hw] at h; simp at h
    · rw [hw] at h
      simp only [List.getLast?_cons_cons, List.getLast?_singleton, Except.ok.injEq] at h
      subst h
      exact ⟨_, rfl, npRound_spec _ _⟩

/-- Two revisions of two values. -/
def exTwoRevisions : List (String × Cell) := [("a", some 1), ("b", some 4), ("a", some 2), ("b", some 8)]

example (phi : ℝ → ℝ) : exTwoRevisions ≠ [] ∧ (∃ s, mtdRevisionStats phi true exTwoRevisions (some 1) = .ok s) ∧
    withinRevisions exTwoRevisions = [(1, 2), (4, 8)] ∧ joinedRevisions exTwoRevisions = [1, 2, 4, 8] := by
  refine ⟨by decide, ?_, by decide +kernel, by decide +kernel⟩
  have hd : mtdData exTwoRevisions = [some 1, some 2, none, some 4, some 8] := by decide +kernel
  obtain ⟨l, hl, hlast⟩ : ∃ l, acf (mtdData exTwoRevisions) "correlation" (some 1) = .ok (some l) ∧ l.getLast? = some (94 / 345) := by
    rw [hd]
    exact ⟨[1, 94 / 345], by decide +kernel, rfl⟩
  rw [mtd_uncentred _ _ _ (by decide), hl]
  obtain ⟨r, hr, -⟩ := (C48_result phi (mtdData exTwoRevisions) "left.sided" "median" 3 (by decide) (by rw [hd]; decide)
    (.inl ⟨rfl, by rw [hd]; decide +kernel⟩)).1 (by rw [hd]; decide +kernel)
  have hmean : pyMean (removeNone (mtdData exTwoRevisions)) = .ok (15 / 4) := by rw [hd]; decide +kernel
  rw [hr, hmean]
  simp only [bind, Except.bind, lastRounded, hlast]
  exact ⟨_, rfl⟩

/-- Four revisions of one value each. -/
def exRevisions : List (String × Cell) := [("a", some 1), ("b", some 2), ("c", some 4), ("d", some 8)]

/-- C134 is false for the default lag: no revision has two values, but an autocorrelation of -0.23 is reported: it comes from
the first value of the first and the value of the last revision. -/
theorem C134_default_lag_counterexample (phi : ℝ → ℝ) :
    ∃ s, mtdRevisionStats phi true exRevisions none = .ok s ∧ s.autoCorR = some (-23 / 100) ∧ withinRevisions exRevisions = [] := by
  have hd : mtdData exRevisions = [some 1, none, some 2, none, some 4, none, some 8] := by decide +kernel
  obtain ⟨l, hl, hlast⟩ : ∃ l, acf (mtdData exRevisions) "correlation" none = .ok (some l) ∧ l.getLast? = some (-187 / 805) := by
    rw [hd]
    exact ⟨[1, 0, 87 / 575, 0, -13 / 69, 0, -187 / 805], by decide +kernel, rfl⟩
  rw [mtd_uncentred _ _ _ (by decide), hl]
  obtain ⟨r, hr, -⟩ := (C48_result phi (mtdData exRevisions) "left.sided" "median" 3 (by decide) (by rw [hd]; decide)
    (.inl ⟨rfl, by rw [hd]; decide +kernel⟩)).1 (by rw [hd]; decide +kernel)
  rw [hr]
  have hmean : pyMean (removeNone (mtdData exRevisions)) = .ok (15 / 4) := by rw [hd]; decide +kernel
  rw [hmean]
  simp only [bind, Except.bind, lastRounded, hlast]
  refine ⟨_, rfl, ?_, by decide +kernel⟩
  simp only [Option.some.injEq]
  refine isRounded_unique (npRound_spec _ 2) ⟨-23, by norm_num, .inl ?_⟩
  rw [abs_lt]
  constructor <;> norm_num

/-! ### C135 -/

/-- C135: the reported value is the rounded left-sided p-value of the runs test of all present values, joined revision after
revision; separators and the subtraction of the mean play no role. -/
theorem C135_runs (phi : ℝ → ℝ) (rows : List (String × Cell)) (lag : Option ℤ) (s : MtdStats) (hr : rows ≠ [])
    (h : mtdRevisionStats phi true rows lag = .ok s) :
    ∃ res p, runsTest phi ((joinedRevisions rows).map some) "left.sided" "median" = .ok (some res) ∧ s.wwRun = some p ∧
      IsRounded res.pValue 2 p := by
  rw [mtd_uncentred phi rows lag hr] at h
  by_cases hj : joinedRevisions rows = []
  · rw [removeNone_mtd rows hr, pyMean, if_pos hj] at h; simp [bind, Except.bind] at h
  have hne : (mtdData rows).filterMap id ≠ [] := by
    have := removeNone_mtd rows hr
    unfold removeNone at this
    rw [this]; exact hj
  have hjoin : runsTest phi (mtdData rows) "left.sided" "median" =
      runsTest phi ((joinedRevisions rows).map some) "left.sided" "median" := by
    rw [C48_ignores_missing phi _ _ _ hne]
    have := removeNone_mtd rows hr
    unfold removeNone at this
    rw [this]
  rcases hm : pyMean (removeNone (mtdData rows)) with e | m
  · rw [hm] at h; simp [bind, Except.bind] at h
  rw [hm] at h
  simp only [bind, Except.bind] at h
  rcases ha : acf (mtdData rows) "correlation" lag with e | a
  · rw [ha] at h; simp at h
  rw [ha] at h
  simp only at h
  rcases hl : lastRounded a with e | r
  · rw [hl] at h; simp at h
  rw [hl] at h
  simp only at h
  rcases hw : runsTest phi (mtdData rows) "left.sided" "median" with e | w
  · rw [hw] at h; simp at h
  rw [hw] at h
  simp only [Except.ok.injEq] at h
  rw [hjoin] at hw
  cases w with
  | none =>
    exfalso
    unfold runsTest at hw
    rw [if_neg (by decide), if_neg (by simpa using hj)] at hw
    simp only [if_true, removeNone_some] at hw
    rcases h1 : pyMedian (joinedRevisions rows) with e | t
    · rw [h1] at hw; simp [bind, Except.bind] at hw
    · rw [h1] at hw
      simp only [bind, Except.bind] at hw
      rcases h2 : runsCore phi (joinedRevisions rows) t "left.sided" with e | r'
      · rw [h2] at hw; simp at hw
      · rw [h2] at hw; simp at hw
  | some res =>
    subst h
    exact ⟨res, _, hw, rfl, npRound_spec _ _⟩

/-- C135: nothing is reported for a frame without rows or without the needed columns. -/
theorem C135_empty (phi : ℝ → ℝ) (cols : Bool) (rows : List (String × Cell)) (lag : Option ℤ) (h : rows = [] ∨ cols = false) :
    mtdRevisionStats phi cols rows lag = .ok ⟨none, none, none⟩ := by
  unfold mtdRevisionStats
  rcases h with rfl | rfl
  · rfl
  · split <;> rfl

/-! ### C136 -/

/-- C136, actual behaviour: the reported p-value is a function of the number of rows and revisions alone. -/
theorem C136_size (phi : ℝ → ℝ) (rows : List (String × Cell)) (lag : Option ℤ) (s : MtdStats) (hr : rows ≠ [])
    (h : mtdRevisionStats phi true rows lag = .ok s) :
    ∃ p, s.autoCorP = some p ∧
      IsRounded (0.06270678 / Real.sqrt ((rows.length : ℝ) + revisionCount rows - 1)) 2 p := by
  rw [mtd_uncentred phi rows lag hr] at h
  have hlen := mtd_length rows hr
  have hcast : ((mtdData rows).length : ℝ) = (rows.length : ℝ) + revisionCount rows - 1 := by
    have : (((mtdData rows).length + 1 : ℕ) : ℝ) = ((rows.length + revisionCount rows : ℕ) : ℝ) := by rw [hlen]
    push_cast at this
    linarith
  rcases hm : pyMean (removeNone (mtdData rows)) with e | m
  · rw [hm] at h; simp [bind, Except.bind] at h
  rw [hm] at h
  simp only [bind, Except.bind] at h
  rcases ha : acf (mtdData rows) "correlation" lag with e | a
  · rw [ha] at h; simp at h
  rw [ha] at h
  simp only at h
  rcases hl : lastRounded a with e | r
  · rw [hl] at h; simp at h
  rw [hl] at h
  simp only at h
  rcases hw : runsTest phi (mtdData rows) "left.sided" "median" with e | w
  · rw [hw] at h; simp at h
  rw [hw] at h
  simp only [Except.ok.injEq] at h
  subst h
  exact ⟨_, rfl, by rw [← hcast]; exact npRound_spec _ _⟩

/-- C136 is false: from 158 rows and separators on the reported p-value is 0, whatever the values. -/
theorem C136_large_counterexample (phi : ℝ → ℝ) (rows : List (String × Cell)) (lag : Option ℤ) (s : MtdStats)
    (hn : 159 ≤ rows.length + revisionCount rows)
    (h : mtdRevisionStats phi true rows lag = .ok s) (hr : rows ≠ []) : s.autoCorP = some 0 := by
  obtain ⟨p, hp, hround⟩ := C136_size phi rows lag s hr h
  rw [hp]
  congr 1
  refine isRounded_unique hround ⟨0, by norm_num, .inl ?_⟩
  have h1 : (158 : ℝ) ≤ (rows.length : ℝ) + revisionCount rows - 1 := by
    have : ((159 : ℕ) : ℝ) ≤ ((rows.length + revisionCount rows : ℕ) : ℝ) := by exact_mod_cast hn
    push_cast at this
    linarith
  have h2 : (12.5414 : ℝ) ≤ Real.sqrt ((rows.length : ℝ) + revisionCount rows - 1) := by
    apply Real.le_sqrt_of_sq_le
    nlinarith
  have hpos : (0 : ℝ) < Real.sqrt ((rows.length : ℝ) + revisionCount rows - 1) := by linarith
  rw [abs_lt]
  constructor
  · have : 0 ≤ 0.06270678 / Real.sqrt ((rows.length : ℝ) + revisionCount rows - 1) := by positivity
    push_cast
    linarith
  · push_cast
    rw [sub_zero, div_mul_eq_mul_div, div_lt_iff₀ hpos]
    norm_num
    linarith

/-- A long revision that jumps up and down. -/
def exLong : List (String × Cell) := (List.range 160).map fun i => ("a", some ((i % 2 : ℕ) : ℚ))

example (phi : ℝ → ℝ) : 159 ≤ exLong.length + revisionCount exLong ∧ exLong ≠ [] ∧
    ∃ s, mtdRevisionStats phi true exLong (some 0) = .ok s := by
  refine ⟨by decide +kernel, by decide +kernel, ?_⟩
  have hl : acf (mtdData exLong) "correlation" (some 0) = .ok (some [1]) := by decide +kernel
  obtain ⟨r, hr, -⟩ := (C48_result phi (mtdData exLong) "left.sided" "median" (1 / 2) (by decide) (by decide +kernel)
    (.inl ⟨rfl, by decide +kernel⟩)).1 (by decide +kernel)
  have hmean : pyMean (removeNone (mtdData exLong)) = .ok (1 / 2) := by decide +kernel
  rw [mtd_uncentred _ _ _ (by decide +kernel), hl, hr, hmean]
  exact ⟨_, rfl⟩

end Metcalcpy.Props
