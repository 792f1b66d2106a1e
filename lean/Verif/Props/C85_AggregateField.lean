/-
C85  Aggregating a list of regions gives one row per valid time and lead.
C86  Aggregation works when a lead is missing at some valid time (false).
C87  Several aggregated values do not disturb each other (false).
-/
import Verif.Model.AggregateField
import Verif.Props.C18_SeriesSums
import Verif.Lemmas.Frame
import Mathlib.Data.List.Basic

namespace Metcalcpy.Props
open Metcalcpy Spec

variable {κ : Type} [DecidableEq κ]

/-- The state after the groups `done` have been aggregated. -/
def aggState (sel : κ → List Val → Bool) (rec : κ → List Val) (rows : List (ℕ × List Val)) (done : List κ) :
    List (ℕ × List Val) :=
  rows.filter (fun r => !done.any (fun k => sel k r.2)) ++ done.map (fun k => (0, rec k))

theorem nodup_labels {rows : List (ℕ × List Val)} (h : (rows.map Prod.fst).Nodup) {r s : ℕ × List Val}
    (hr : r ∈ rows) (hs : s ∈ rows) (e : r.1 = s.1) : r = s :=
  List.inj_on_of_nodup_map h hr hs e

theorem aggregateStep_state (lt : String) (cols : List String) (sel : κ → List Val → Bool) (i : ℕ) (name : Val)
    (rows : List (ℕ × List Val)) (rec : κ → List Val) (A : κ → List (String × Val)) (done : List κ) (k : κ)
    (hlab : (rows.map Prod.fst).Nodup)
    (hdis : ∀ r : List Val, ∀ k', k' ∈ done → sel k r = true → sel k' r = true → False)
    (hzero : done ≠ [] → ∀ r ∈ rows, r.1 = 0 → sel k r.2 = false)
    (hrec : ∀ k' ∈ done, sel k (rec k') = false)
    (hA : groupSums lt cols ((rows.filter (fun r => sel k r.2)).map Prod.snd) = .ok (A k))
    (hk : rec k = (recordSums cols (A k) ((rows.filter (fun r => sel k r.2)).map Prod.snd)).set i name) :
    aggregateStep lt cols (sel k) i name (aggState sel rec rows done) =
      .ok (aggState sel rec rows (done ++ [k])) := by
  have hp : (aggState sel rec rows done).filter (fun r => sel k r.2) = rows.filter (fun r => sel k r.2) := by
    unfold aggState
    rw [List.filter_append, List.filter_filter]
    have h1 : (done.map (fun k => (0, rec k))).filter (fun r : ℕ × List Val => sel k r.2) = [] := by
      rw [List.filter_eq_nil_iff]
      intro x hx
      obtain ⟨k', hk', rfl⟩ := List.mem_map.mp hx
      simp [hrec k' hk']
    rw [h1, List.append_nil]
    apply List.filter_congr
    intro r _
    by_cases hs : sel k r.2 = true
    · have : done.any (fun k => sel k r.2) = false := by
        rw [List.any_eq_false]
        intro k' hk' h
        exact hdis r.2 k' hk' hs h
      simp [hs, this]
    · simp [Bool.eq_false_iff.mpr hs]
  unfold aggregateStep
  simp only [hp, hA, bind, Except.bind, pure, Except.pure, ← hk]
  congr 1
  unfold aggState
  rw [List.filter_append, List.map_append]
  simp only [List.map_cons, List.map_nil]
  rw [← List.append_assoc]
  congr 1
  have e2 : (done.map (fun k => (0, rec k))).filter
      (fun r : ℕ × List Val => !((rows.filter (fun r => sel k r.2)).map Prod.fst).contains r.1) =
      done.map (fun k => (0, rec k)) := by
    rw [List.filter_eq_self]
    intro x hx
    obtain ⟨k', hk', rfl⟩ := List.mem_map.mp hx
    have : (0 : ℕ) ∉ (rows.filter (fun r => sel k r.2)).map Prod.fst := by
      intro h0
      obtain ⟨r, hr, e⟩ := List.mem_map.mp h0
      obtain ⟨hr1, hr2⟩ := List.mem_filter.mp hr
      have := hzero (List.ne_nil_of_mem hk') r hr1 e
      simp [this] at hr2
    simpa using this
  rw [e2]
  congr 1
  rw [List.filter_filter]
  apply List.filter_congr
  intro r hr
  have : (((rows.filter (fun r => sel k r.2)).map Prod.fst).contains r.1) = sel k r.2 := by
    rw [Bool.eq_iff_iff, List.contains_iff_mem, List.mem_map]
    constructor
    · rintro ⟨s, hs, e⟩
      obtain ⟨hs1, hs2⟩ := List.mem_filter.mp hs
      rw [← nodup_labels hlab hs1 hr e]
      exact hs2
    · intro h
      exact ⟨r, List.mem_filter.mpr ⟨hr, h⟩, rfl⟩
  rw [this, List.any_append]
  simp [Bool.and_comm]

theorem aggregate_fold (lt : String) (cols : List String) (sel : κ → List Val → Bool) (i : ℕ) (name : Val)
    (rows : List (ℕ × List Val)) (rec : κ → List Val) (A : κ → List (String × Val)) (keys : List κ)
    (hlab : (rows.map Prod.fst).Nodup) (hnd : keys.Nodup)
    (hdis : ∀ r : List Val, ∀ k k', sel k r = true → sel k' r = true → k = k')
    (hzero : ∀ r ∈ rows, r.1 = 0 → ∀ k ∈ keys, sel k r.2 = true → keys.head? = some k)
    (hrec : ∀ k ∈ keys, ∀ k' ∈ keys, sel k (rec k') = false)
    (hA : ∀ k ∈ keys, groupSums lt cols ((rows.filter (fun r => sel k r.2)).map Prod.snd) = .ok (A k))
    (hk : ∀ k ∈ keys,
      rec k = (recordSums cols (A k) ((rows.filter (fun r => sel k r.2)).map Prod.snd)).set i name) :
    keys.foldlM (fun rows k => aggregateStep lt cols (sel k) i name rows) rows =
      .ok (aggState sel rec rows keys) := by
  have gen : ∀ todo done : List κ, keys = done ++ todo →
      todo.foldlM (fun rows k => aggregateStep lt cols (sel k) i name rows) (aggState sel rec rows done) =
        .ok (aggState sel rec rows keys) := by
    intro todo
    induction todo with
    | nil => intro done h; simp at h; subst h; rfl
    | cons k todo ih =>
      intro done h
      have hkk : k ∈ keys := by rw [h]; simp
      have hnot : k ∉ done := by
        intro hm
        rw [h] at hnd
        have := List.nodup_append.mp hnd
        exact this.2.2 k hm k (by simp) rfl
      rw [List.foldlM_cons, aggregateStep_state lt cols sel i name rows rec A done k hlab]
      · simp only [bind, Except.bind]
        exact ih (done ++ [k]) (by rw [h]; simp)
      · intro r k' hk' h1 h2
        exact hnot (hdis r k k' h1 h2 ▸ hk')
      · intro hne r hr h0
        by_contra hs
        have hs : sel k r.2 = true := by simpa using hs
        have := hzero r hr h0 k hkk hs
        obtain ⟨d, ds, rfl⟩ := List.exists_cons_of_ne_nil hne
        rw [h] at this
        simp at this
        exact hnot (by simp [this])
      · intro k' hk'
        exact hrec k hkk k' (by rw [h]; simp [hk'])
      · exact hA k hkk
      · exact hk k hkk
  have := gen keys [] rfl
  have e : aggState sel rec rows [] = rows := by simp [aggState]
  rwa [e] at this

theorem dedup_getLast? {α : Type} [DecidableEq α] (xs : List α) (a : α) : (xs ++ [a]).dedup.getLast? = some a := by
  induction xs with
  | nil => simp
  | cons x xs ih =>
    rw [List.cons_append]
    by_cases h : x ∈ xs ++ [a]
    · rw [List.dedup_cons_of_mem h]; exact ih
    · rw [List.dedup_cons_of_notMem h, List.getLast?_cons, ih]; rfl

theorem uniqueVals_head? (l : List Val) : (uniqueVals l).head? = l.head? := by
  unfold uniqueVals
  cases l with
  | nil => rfl
  | cons a l =>
    rw [List.head?_reverse, List.reverse_cons, dedup_getLast?]; rfl

theorem uniqueVals_nodup (l : List Val) : (uniqueVals l).Nodup := by
  unfold uniqueVals; rw [List.nodup_reverse]; exact List.nodup_dedup _

theorem mem_uniqueVals (l : List Val) (v : Val) : v ∈ uniqueVals l ↔ v ∈ l := by
  unfold uniqueVals; simp

theorem splitSemi_noSemi (cs : List Char) : ∀ w ∈ splitSemi cs, ';' ∉ w := by
  induction cs with
  | nil => simp [splitSemi]
  | cons c cs ih =>
    unfold splitSemi
    split
    · next h => 
      intro w hw
      exfalso
      cases cs with
      | nil => simp [splitSemi] at h
      | cons d ds =>
        unfold splitSemi at h
        split at h
        · simp at h
        · split at h <;> simp at h
    · next w ws h =>
      rw [h] at ih
      intro u hu
      by_cases hc : c = ';'
      · simp only [hc, beq_self_eq_true, if_true, List.mem_cons] at hu
        rcases hu with rfl | rfl | hu
        · simp
        · exact ih _ (by simp)
        · exact ih _ (by simp [hu])
      · have : (c == ';') = false := by simpa using hc
        simp only [this, Bool.false_eq_true, if_false, List.mem_cons] at hu
        rcases hu with rfl | hu
        · have := ih w (by simp)
          simp only [List.mem_cons, not_or]
          exact ⟨fun e => hc e.symm, this⟩
        · exact ih _ (by simp [hu])

theorem hasSemi_of_mem_semiParts {s p : String} (h : p ∈ semiParts s) : hasSemi p = false := by
  obtain ⟨w, hw, rfl⟩ := List.mem_map.mp h
  have := splitSemi_noSemi _ w hw
  unfold hasSemi
  rw [String.toList_ofList, Bool.eq_false_iff]
  simpa using this

theorem isinTexts_self {s : String} (h : hasSemi s = true) : isinTexts (.str s) (semiParts s) = false := by
  unfold isinTexts
  simp only [decide_eq_false_iff_not]
  intro hm
  rw [hasSemi_of_mem_semiParts hm] at h
  simp at h

theorem fold_noSemi_vals (g : String → IFrame → Except PyErr IFrame) (vals : List String) (f : IFrame)
    (h : ∀ x ∈ vals, hasSemi x = false) :
    vals.foldlM (fun f value => if hasSemi value then g value f else .ok f) f = .ok f := by
  induction vals with
  | nil => rfl
  | cons x xs ih =>
    rw [List.foldlM_cons, h x (by simp)]
    simp only [Bool.false_eq_true, if_false, bind, Except.bind]
    exact ih fun y hy => h y (by simp [hy])

theorem fold_noSemi (g : String → String → IFrame → Except PyErr IFrame) (series : List (String × List String))
    (f : IFrame) (h : ∀ p ∈ series, ∀ x ∈ p.2, hasSemi x = false) :
    series.foldlM (fun f p => p.2.foldlM (fun f value => if hasSemi value then g p.1 value f else .ok f) f) f =
      .ok f := by
  induction series with
  | nil => rfl
  | cons p ps ih =>
    rw [List.foldlM_cons, fold_noSemi_vals _ _ _ (h p (by simp))]
    simp only [bind, Except.bind]
    exact ih fun q hq => h q (by simp [hq])

/-- The only aggregated value (a value containing ';') of the series is `value`, of the variable `var`. -/
def OnlyAggregated (series : List (String × List String)) (var value : String) : Prop :=
  hasSemi value = true ∧ ∃ s₁ v₁ v₂ s₂, series = s₁ ++ (var, v₁ ++ value :: v₂) :: s₂ ∧
    (∀ p ∈ s₁ ++ s₂, ∀ x ∈ p.2, hasSemi x = false) ∧ ∀ x ∈ v₁ ++ v₂, hasSemi x = false

theorem fold_onlyAggregated (g : String → String → IFrame → Except PyErr IFrame)
    (series : List (String × List String)) (var value : String) (f : IFrame)
    (h : OnlyAggregated series var value) :
    series.foldlM (fun f p => p.2.foldlM (fun f value => if hasSemi value then g p.1 value f else .ok f) f) f =
      g var value f := by
  obtain ⟨hs, s₁, v₁, v₂, s₂, rfl, h1, h2⟩ := h
  rw [List.foldlM_append, fold_noSemi g s₁ f fun p hp => h1 p (by simp [hp])]
  simp only [bind, Except.bind]
  rw [List.foldlM_cons, List.foldlM_append,
    fold_noSemi_vals (g var) v₁ f fun x hx => h2 x (by simp [hx])]
  simp only [bind, Except.bind]
  rw [List.foldlM_cons, hs]
  simp only [if_true, bind, Except.bind]
  cases hg : g var value f with
  | error e => rfl
  | ok f' =>
    simp only
    rw [fold_noSemi_vals (g var) v₂ f' fun x hx => h2 x (by simp [hx])]
    simp only
    exact fold_noSemi g s₂ f' fun p hp => h1 p (by simp [hp])

/-- Row `r` of `f` belongs to one of the regions listed in `value`. -/
def InRegion (f : Frame) (var value : String) (r : List Val) : Prop :=
  ∃ s ∈ semiParts value, HasCell f r var (.str s)

/-- Row `r` belongs to the given valid time and lead. -/
def AtTime (f : Frame) (valid lead : Val) (r : List Val) : Prop :=
  HasCell f r "fcst_valid_beg" valid ∧ HasCell f r "fcst_lead" lead

open Classical in
/-- The group of rows that is aggregated for one valid time and lead. -/
noncomputable def regionGroup (f : Frame) (var value : String) (valid lead : Val) : List (List Val) :=
  f.rows.filter fun r => decide (AtTime f valid lead r ∧ InRegion f var value r)

/-- `l` lists the values of the column `name`, each once. -/
def ListsValues (f : Frame) (name : String) (l : List Val) : Prop :=
  l.Nodup ∧ ∀ v, v ∈ l ↔ ∃ r ∈ f.rows, HasCell f r name v

/-- `new` is the first row of the group with the aggregated name in the column `var` and the fields `sums` in
the columns of those names. -/
def IsPooledRow (f : Frame) (var value : String) (sums : List (String × Val)) (first new : List Val) : Prop :=
  new.length = f.cols.length ∧ HasCell f new var (.str value) ∧
    ∀ c ∈ f.cols, c ≠ var → ∀ v, HasCell f new c v ↔
      (sums.lookup c = some v ∨ (sums.lookup c = none ∧ HasCell f first c v))

/-- Input of an aggregation over one variable: a rectangular frame with the time columns and the series variable,
whose index labels increase (any selection of rows of a frame as read from a file) and whose times are present. -/
structure RegionInput (f : IFrame) (var value : String) : Prop where
  wf : FrameWF f.frame
  valid : "fcst_valid_beg" ∈ f.cols
  lead : "fcst_lead" ∈ f.cols
  var_mem : var ∈ f.cols
  var_ne : var ≠ "fcst_lead"
  labels : (f.rows.map Prod.fst).Pairwise (· < ·)
  times : ∀ r ∈ f.frame.rows, ¬ HasCell f.frame r "fcst_valid_beg" .null ∧ ¬ HasCell f.frame r "fcst_lead" .null

theorem eqCell_iff (v w : Val) : eqCell v w = true ↔ v ≠ .null ∧ v = w := by
  simp [eqCell]

theorem isinTexts_iff (v : Val) (l : List String) : isinTexts v l = true ↔ ∃ s ∈ l, v = .str s := by
  cases v <;> simp [isinTexts]

theorem hasCell_iff_cellAt {f : Frame} {r : List Val} {name : String} {i : ℕ} (hi : f.idx? name = some i)
    (hr : r.length = f.cols.length) (v : Val) : HasCell f r name v ↔ cellAt r i = v :=
  ⟨fun h => hasCell_unique hi h, fun h => h ▸ hasCell_cellAt hi hr⟩

theorem recordSums_length {f : Frame} {agg : List (String × Val)} {g : List (List Val)}
    (h : ∀ r ∈ g, r.length = f.cols.length) : (recordSums f.cols agg g).length = f.cols.length := by
  unfold recordSums
  rw [List.length_zipWith]
  cases g with
  | nil => simp
  | cons r g => simp [h r (by simp)]

theorem recordSums_pooled (f : Frame) (var value : String) (i : ℕ) (hi : f.idx? var = some i)
    (agg : List (String × Val)) (first : List Val) (g : List (List Val))
    (hwf : ∀ r ∈ first :: g, r.length = f.cols.length) :
    IsPooledRow f var value agg first ((recordSums f.cols agg (first :: g)).set i (.str value)) := by
  have hlen := recordSums_length (agg := agg) hwf
  have hil := Frame.idx?_lt hi
  refine ⟨by rw [List.length_set, hlen], ?_, ?_⟩
  · rw [hasCell_iff hi, List.getElem?_set_self (by omega)]
  · intro c hc hne v
    obtain ⟨j, hj⟩ := Frame.idx?_of_mem hc
    have hij : i ≠ j := by
      rintro rfl
      have h1 := (Frame.idx?_eq_some.mp hi).1
      rw [(Frame.idx?_eq_some.mp hj).1] at h1
      exact hne (by simpa using h1)
    have hjl := Frame.idx?_lt hj
    have hfl := hwf first (by simp)
    have hcj := (Frame.idx?_eq_some.mp hj).1
    rw [hasCell_iff hj, hasCell_iff hj, List.getElem?_set_ne hij]
    unfold recordSums
    simp only [List.headD_cons]
    rw [List.getElem?_zipWith, hcj, List.getElem?_eq_getElem (by omega)]
    cases hlk : List.lookup c agg <;> simp [hlk]

open Classical in
/-- C85: when a single value lists several regions ("EAST;NMT"), every valid time has every lead and calc_series_sums
succeeds on each group, the result consists of the rows outside the listed regions, unchanged and in order, followed by
exactly one row for every combination of a valid time and a lead: the first row of its group with the aggregated name
and the sums of the group.  Missing: combinations without rows (C86) and several aggregated values (C87), where the
code fails. -/
theorem C85_one_row_per_time_partial (lt var value : String) (series : List (String × List String)) (f : IFrame)
    (I : RegionInput f var value) (hser : OnlyAggregated series var value)
    (sums : Val → Val → List (String × Val))
    (hsums : ∀ valid lead, (∃ r ∈ f.frame.rows, HasCell f.frame r "fcst_valid_beg" valid) →
      (∃ r ∈ f.frame.rows, HasCell f.frame r "fcst_lead" lead) →
      regionGroup f.frame var value valid lead ≠ [] ∧
      groupSums lt f.cols (regionGroup f.frame var value valid lead) = .ok (sums valid lead)) :
    ∃ (out : IFrame) (valids leads : List Val) (pooled : Val → Val → List Val),
      aggregateFieldValues lt series f = .ok out ∧ out.cols = f.cols ∧
      ListsValues f.frame "fcst_valid_beg" valids ∧ ListsValues f.frame "fcst_lead" leads ∧
      out.frame.rows = f.frame.rows.filter (fun r => decide (¬ InRegion f.frame var value r)) ++
        (valids ×ˢ leads).map (fun k => pooled k.1 k.2) ∧
      ∀ valid ∈ valids, ∀ lead ∈ leads, ∃ first rest,
        regionGroup f.frame var value valid lead = first :: rest ∧
        IsPooledRow f.frame var value (sums valid lead) first (pooled valid lead) := by
  obtain ⟨v, hv⟩ := Frame.idx?_of_mem (f := f.frame) I.valid
  obtain ⟨l, hl⟩ := Frame.idx?_of_mem (f := f.frame) I.lead
  obtain ⟨i, hi⟩ := Frame.idx?_of_mem (f := f.frame) I.var_mem
  have wf' : ∀ r ∈ f.rows, r.2.length = f.frame.cols.length := fun r hr => I.wf r.2 (List.mem_map_of_mem hr)
  set valids := uniqueVals (f.rows.map fun r => cellAt r.2 v) with hvalids
  set leads := uniqueVals (f.rows.map fun r => cellAt r.2 l) with hleads
  set sel : Val × Val → List Val → Bool := fun k r =>
    eqCell (cellAt r v) k.1 && eqCell (cellAt r l) k.2 && isinTexts (cellAt r i) (semiParts value) with hsel
  have hlv : ListsValues f.frame "fcst_valid_beg" valids := by
    refine ⟨uniqueVals_nodup _, fun x => ?_⟩
    rw [hvalids, mem_uniqueVals, List.mem_map]
    constructor
    · rintro ⟨r, hr, rfl⟩
      exact ⟨r.2, List.mem_map_of_mem hr, hasCell_cellAt hv (wf' r hr)⟩
    · rintro ⟨r, hr, h⟩
      obtain ⟨s, hs, rfl⟩ := List.mem_map.mp hr
      exact ⟨s, hs, hasCell_unique hv h⟩
  have hll : ListsValues f.frame "fcst_lead" leads := by
    refine ⟨uniqueVals_nodup _, fun x => ?_⟩
    rw [hleads, mem_uniqueVals, List.mem_map]
    constructor
    · rintro ⟨r, hr, rfl⟩
      exact ⟨r.2, List.mem_map_of_mem hr, hasCell_cellAt hl (wf' r hr)⟩
    · rintro ⟨r, hr, h⟩
      obtain ⟨s, hs, rfl⟩ := List.mem_map.mp hr
      exact ⟨s, hs, hasCell_unique hl h⟩
  have hreg : ∀ r ∈ f.frame.rows, (isinTexts (cellAt r i) (semiParts value) = true ↔
      InRegion f.frame var value r) := by
    intro r hr
    rw [isinTexts_iff]
    unfold InRegion
    simp only [hasCell_iff_cellAt hi (I.wf r hr)]
  have hselg : ∀ r ∈ f.frame.rows, ∀ k, (sel k r = true ↔
      AtTime f.frame k.1 k.2 r ∧ InRegion f.frame var value r) := by
    intro r hr k
    have hn := I.times r hr
    simp only [hasCell_iff_cellAt hv (I.wf r hr), hasCell_iff_cellAt hl (I.wf r hr)] at hn
    simp only [hsel, Bool.and_eq_true, eqCell_iff, hreg r hr, AtTime,
      hasCell_iff_cellAt hv (I.wf r hr), hasCell_iff_cellAt hl (I.wf r hr)]
    tauto
  have hgroup : ∀ k, (f.rows.filter (fun r => sel k r.2)).map Prod.snd =
      regionGroup f.frame var value k.1 k.2 := by
    intro k
    unfold regionGroup
    have : f.frame.rows = f.rows.map Prod.snd := rfl
    rw [this, List.filter_map]
    congr 1
    apply List.filter_congr
    intro r hr
    have := hselg r.2 (List.mem_map_of_mem hr) k
    simp only [Function.comp]
    rw [Bool.eq_iff_iff, this, decide_eq_true_iff]
  set rec : Val × Val → List Val := fun k =>
    (recordSums f.cols (sums k.1 k.2) (regionGroup f.frame var value k.1 k.2)).set i (.str value) with hrecdef
  have hkeys : ∀ k ∈ valids ×ˢ leads, regionGroup f.frame var value k.1 k.2 ≠ [] ∧
      groupSums lt f.cols (regionGroup f.frame var value k.1 k.2) = .ok (sums k.1 k.2) := by
    intro k hk
    have := List.mem_product.mp (show (k.1, k.2) ∈ valids ×ˢ leads from hk)
    exact hsums k.1 k.2 ((hlv.2 _).mp this.1) ((hll.2 _).mp this.2)
  have hgwf : ∀ k : Val × Val, ∀ r ∈ regionGroup f.frame var value k.1 k.2, r.length = f.frame.cols.length := by
    intro k r hr
    exact I.wf r (List.mem_filter.mp hr).1
  have hlab : (f.rows.map Prod.fst).Nodup := I.labels.imp (fun h => Nat.ne_of_lt h)
  have hfold := aggregate_fold lt f.cols sel i (.str value) f.rows rec (fun k => sums k.1 k.2) (valids ×ˢ leads)
    hlab (List.Nodup.product hlv.1 hll.1)
    (by
      intro r k k' h1 h2
      simp only [hsel, Bool.and_eq_true, eqCell_iff] at h1 h2
      exact Prod.ext (h1.1.1.2.symm.trans h2.1.1.2) (h1.1.2.2.symm.trans h2.1.2.2))
    (by
      intro r hr h0 k hk hs
      simp only [hsel, Bool.and_eq_true, eqCell_iff] at hs
      -- the row with label 0 is the first row
      have hhead : f.rows.head? = some r := by
        cases hf : f.rows with
        | nil => rw [hf] at hr; simp at hr
        | cons s ss =>
          rw [hf] at hr
          have hp := I.labels
          rw [hf, List.map_cons, List.pairwise_cons] at hp
          rcases List.mem_cons.mp hr with rfl | hm
          · rfl
          · have := hp.1 r.1 (List.mem_map_of_mem hm)
            omega
      have h1 : valids.head? = some k.1 := by
        rw [hvalids, uniqueVals_head?, List.head?_map, hhead]
        simp [hs.1.1.2]
      have h2 : leads.head? = some k.2 := by
        rw [hleads, uniqueVals_head?, List.head?_map, hhead]
        simp [hs.1.2.2]
      obtain ⟨vs, e1⟩ := List.head?_eq_some_iff.mp h1
      obtain ⟨ls, e2⟩ := List.head?_eq_some_iff.mp h2
      rw [e1, e2, List.product_cons]
      rfl)
    (by
      intro k _ k' hk'
      have hlen : (recordSums f.cols (sums k'.1 k'.2) (regionGroup f.frame var value k'.1 k'.2)).length =
        f.cols.length := recordSums_length (f := f.frame) (hgwf k')
      have hil := Frame.idx?_lt hi
      have hc : cellAt (rec k') i = .str value := by
        rw [hrecdef]
        unfold cellAt
        rw [List.getElem?_set_self (by rw [hlen]; exact hil)]
        rfl
      simp only [hsel, hc, isinTexts_self hser.1, Bool.and_false])
    (by
      intro k hk
      rw [hgroup]
      exact (hkeys k hk).2)
    (by
      intro k _
      rw [hgroup])
  refine ⟨{ f with rows := aggState sel rec f.rows (valids ×ˢ leads) }, valids, leads, fun a b => rec (a, b), ?_, rfl,
    hlv, hll, ?_, ?_⟩
  · unfold aggregateFieldValues
    simp only [hv, hl, bind, Except.bind]
    rw [fold_onlyAggregated (fun p x g => aggregateValue lt v l _ _ p x g) series var value f hser]
    unfold aggregateValue
    simp only [I.var_ne, ne_eq, not_false_eq_true, if_true, IFrame.col, Frame.col, hi, bind, Except.bind]
    simp only [hsel] at hfold
    rw [hfold]
    rfl
  · change (aggState sel rec f.rows (valids ×ˢ leads)).map Prod.snd =
      (f.rows.map Prod.snd).filter (fun r => decide (¬ InRegion f.frame var value r)) ++ _
    unfold aggState
    rw [List.map_append, List.map_map]
    congr 1
    rw [List.filter_map]
    congr 1
    apply List.filter_congr
    intro r hr
    have hm : r.2 ∈ f.frame.rows := List.mem_map_of_mem hr
    simp only [Function.comp]
    rw [Bool.eq_iff_iff, decide_eq_true_iff, Bool.not_eq_true', ← Bool.not_eq_true, List.any_eq_true, not_iff_not]
    constructor
    · rintro ⟨k, _, hk⟩
      exact ((hselg r.2 hm k).mp hk).2
    · intro h
      have c1 := hasCell_cellAt hv (I.wf r.2 hm)
      have c2 := hasCell_cellAt hl (I.wf r.2 hm)
      refine ⟨(cellAt r.2 v, cellAt r.2 l), ?_, (hselg r.2 hm _).mpr ⟨⟨c1, c2⟩, h⟩⟩
      exact List.mem_product.mpr ⟨(hlv.2 _).mpr ⟨r.2, hm, c1⟩, (hll.2 _).mpr ⟨r.2, hm, c2⟩⟩
  · intro a ha b hb
    obtain ⟨h1, _⟩ := hkeys (a, b) (List.mem_product.mpr ⟨ha, hb⟩)
    obtain ⟨first, rest, e⟩ := List.exists_cons_of_ne_nil h1
    refine ⟨first, rest, e, ?_⟩
    have := recordSums_pooled f.frame var value i hi (sums a b) first rest (by
      intro r hr; exact hgwf (a, b) r (by simp only [e]; exact hr))
    simp only [hrecdef, e]
    exact this

/-- Every row of `g` has the number `T r` in the column "total". -/
def HasTotals (f : Frame) (T : List Val → ℚ) (g : List (List Val)) : Prop :=
  ∀ r ∈ g, ∃ text, HasCell f r "total" (.num (T r) text)

theorem rowCells_getElem? (r : List Val) (i : ℕ) (q : ℚ) (t : String) (h : r[i]? = some (.num q t)) :
    (rowCells r)[i]? = some (some q) := by
  unfold rowCells
  rw [List.getElem?_map, h]
  rfl

theorem sumColumn_group (f : Frame) (hc : "total" ∈ f.cols) (T : List Val → ℚ) (g : List (List Val)) (hg : g ≠ [])
    (hT : HasTotals f T g) :
    sumColumn { cols := f.cols, rows := g.map rowCells } "total" = some (g.map T).sum := by
  obtain ⟨i, hi⟩ := Frame.idx?_of_mem hc
  obtain ⟨h1, h2⟩ := Frame.idx?_eq_some.mp hi
  apply sumColumn_of_complete (by simpa using hg)
  refine ⟨i, h1, h2, ?_⟩
  simp only [List.map_map]
  apply List.map_congr_left
  intro r hr
  obtain ⟨t, ht⟩ := hT r hr
  exact rowCells_getElem? r i _ t ((hasCell_iff hi _).mp ht)

/-- Whatever the line type, the first field calc_series_sums returns is the summed total. -/
theorem seriesSums_total (lt : String) (t s : Table) (h : seriesSums lt t = .ok s) :
    ∃ cs vs, s.cols = "total" :: cs ∧ s.rows = [sumColumn t "total" :: vs] := by
  unfold seriesSums calcSeriesSums at h
  by_cases h1 : lt = "ctc" ∨ lt = "nbrctc"
  · simp only [h1, if_true, Except.ok.injEq] at h
    subst h
    exact ⟨_, _, rfl, rfl⟩
  · simp only [h1, if_false] at h
    cases hm : meanColumns lt with
    | some cols =>
      simp only [hm, Option.map_some, seriesMeans, bind, Except.bind] at h
      split at h
      · simp at h
      · simp only [pure, Except.pure, Except.ok.injEq] at h
        subst h
        exact ⟨_, _, rfl, rfl⟩
    | none =>
      simp only [hm, Option.map_none] at h
      split_ifs at h
      · simp only [seriesSumsNbrcnt, bind, Except.bind] at h
        repeat' (split at h)
        all_goals first
          | (simp at h; done)
          | (simp only [pure, Except.pure, Except.ok.injEq] at h; subst h; exact ⟨_, _, rfl, rfl⟩)
      · simp only [seriesSumsEcnt, bind, Except.bind] at h
        repeat' (split at h)
        all_goals first
          | (simp at h; done)
          | (simp only [pure, Except.pure, Except.ok.injEq] at h; subst h; exact ⟨_, _, rfl, rfl⟩)
      · simp only [seriesSumsRps, bind, Except.bind] at h
        repeat' (split at h)
        all_goals first
          | (simp at h; done)
          | (simp only [pure, Except.pure, Except.ok.injEq] at h; subst h; exact ⟨_, _, rfl, rfl⟩)
      · simp only [Except.ok.injEq] at h; subst h; exact ⟨_, _, rfl, rfl⟩

theorem groupSums_total (lt : String) (cols : List String) (g : List (List Val)) (A : List (String × Val))
    (h : groupSums lt cols g = .ok A) :
    A.lookup "total" = some (numVal (sumColumn { cols := cols, rows := g.map rowCells } "total")) := by
  unfold groupSums at h
  cases hs : seriesSums lt { cols := cols, rows := g.map rowCells } with
  | error e => simp [hs, bind, Except.bind] at h
  | ok s =>
    obtain ⟨cs, vs, e1, e2⟩ := seriesSums_total lt _ s hs
    simp only [hs, bind, Except.bind, pure, Except.pure, Except.ok.injEq] at h
    subst h
    rw [e1, e2]
    simp

open Classical in
theorem sum_partition {κ α : Type} (p : κ → α → Prop) (T : α → ℚ) (keys : List κ) (rows : List α)
    (hnd : keys.Nodup) (huniq : ∀ r k k', p k r → p k' r → k = k') :
    (keys.map fun k => ((rows.filter fun r => decide (p k r)).map T).sum).sum =
      ((rows.filter fun r => decide (∃ k ∈ keys, p k r)).map T).sum := by
  induction rows with
  | nil => simp
  | cons r rows ih =>
    have key : (keys.map fun k => (((r :: rows).filter fun r => decide (p k r)).map T).sum).sum =
        (keys.map fun k => if p k r then T r else 0).sum +
        (keys.map fun k => ((rows.filter fun r => decide (p k r)).map T).sum).sum := by
      rw [← List.sum_map_add]
      congr 1
      apply List.map_congr_left
      intro k _
      by_cases h : p k r <;> simp [h]
    have one : (keys.map fun k => if p k r then T r else 0).sum = if ∃ k ∈ keys, p k r then T r else 0 := by
      clear ih key
      induction keys with
      | nil => simp
      | cons k ks ihk =>
        obtain ⟨hk, hks⟩ := List.nodup_cons.mp hnd
        by_cases h : p k r
        · have h0 : (ks.map fun k => if p k r then T r else 0).sum = 0 := by
            apply List.sum_eq_zero
            intro x hx
            obtain ⟨k', hk', rfl⟩ := List.mem_map.mp hx
            rw [if_neg]
            intro h'
            exact hk (huniq r k k' h h' ▸ hk')
          rw [List.map_cons, List.sum_cons, h0, if_pos h, if_pos ⟨k, by simp, h⟩, add_zero]
        · have hi : (∃ k' ∈ k :: ks, p k' r) ↔ ∃ k' ∈ ks, p k' r := by
            simp only [List.mem_cons, exists_eq_or_imp, h, false_or]
          rw [List.map_cons, List.sum_cons, if_neg h, zero_add, ihk hks]
          by_cases he : ∃ k' ∈ ks, p k' r
          · rw [if_pos he, if_pos (hi.mpr he)]
          · rw [if_neg he, if_neg (fun x => he (hi.mp x))]
    rw [key, one, ih]
    by_cases h : ∃ k ∈ keys, p k r <;> simp [h]

/-- C85: the aggregation keeps the total number of matched pairs, whatever the line type. -/
theorem C85_total_preserved_partial (lt var value : String) (series : List (String × List String)) (f out : IFrame)
    (I : RegionInput f var value) (hser : OnlyAggregated series var value)
    (ht : "total" ∈ f.cols) (hvt : var ≠ "total") (T : List Val → ℚ) (hT : HasTotals f.frame T f.frame.rows)
    (sums : Val → Val → List (String × Val))
    (hsums : ∀ valid lead, (∃ r ∈ f.frame.rows, HasCell f.frame r "fcst_valid_beg" valid) →
      (∃ r ∈ f.frame.rows, HasCell f.frame r "fcst_lead" lead) →
      regionGroup f.frame var value valid lead ≠ [] ∧
      groupSums lt f.cols (regionGroup f.frame var value valid lead) = .ok (sums valid lead))
    (hout : aggregateFieldValues lt series f = .ok out) (hT' : HasTotals f.frame T out.frame.rows) :
    (out.frame.rows.map T).sum = (f.frame.rows.map T).sum := by
  classical
  obtain ⟨out', valids, leads, pooled, h1, -, hv, hl, hrows, hpool⟩ :=
    C85_one_row_per_time_partial lt var value series f I hser sums hsums
  obtain rfl : out = out' := by rw [hout] at h1; simpa using h1
  have hTp : ∀ k ∈ valids ×ˢ leads,
      T (pooled k.1 k.2) = ((regionGroup f.frame var value k.1 k.2).map T).sum := by
    intro k hk
    have hk' := List.mem_product.mp (show (k.1, k.2) ∈ valids ×ˢ leads from hk)
    obtain ⟨first, rest, e, -, -, hp⟩ := hpool k.1 hk'.1 k.2 hk'.2
    obtain ⟨text, hc⟩ := hT' (pooled k.1 k.2) (by
      rw [hrows, List.mem_append]; right
      exact List.mem_map.mpr ⟨k, hk, rfl⟩)
    have hs := hsums k.1 k.2 ((hv.2 _).mp hk'.1) ((hl.2 _).mp hk'.2)
    have hg := groupSums_total lt f.cols _ _ hs.2
    have hsum := sumColumn_group f.frame ht T (regionGroup f.frame var value k.1 k.2) hs.1 (fun r hr =>
      hT r (List.mem_filter.mp hr).1)
    have hfc : f.frame.cols = f.cols := rfl
    rw [hfc] at hsum
    rw [hsum] at hg
    rcases (hp "total" ht (Ne.symm hvt) _).mp hc with h | h
    · rw [hg] at h
      simp only [numVal, Option.some.injEq, Val.num.injEq] at h
      exact h.1.symm
    · rw [hg] at h; simp at h
  have hpart := sum_partition (fun (k : Val × Val) r => AtTime f.frame k.1 k.2 r ∧ InRegion f.frame var value r) T
    (valids ×ˢ leads) f.frame.rows (List.Nodup.product hv.1 hl.1) (by
      rintro r k k' ⟨⟨a1, a2⟩, -⟩ ⟨⟨b1, b2⟩, -⟩
      have u : ∀ name a b, HasCell f.frame r name a → HasCell f.frame r name b → a = b := by
        rintro name a b ⟨i, i1, i2, i3⟩ ⟨j, j1, j2, j3⟩
        have : i = j := by
          rcases lt_trichotomy i j with h | h | h
          · exact absurd i1 (j2 i h)
          · exact h
          · exact absurd j1 (i2 j h)
        subst this
        rw [i3] at j3
        simpa using j3
      exact Prod.ext (u _ _ _ a1 b1) (u _ _ _ a2 b2))
  have hiff : ∀ r ∈ f.frame.rows, ((∃ k ∈ valids ×ˢ leads, AtTime f.frame k.1 k.2 r ∧
      InRegion f.frame var value r) ↔ InRegion f.frame var value r) := by
    intro r hr
    refine ⟨fun ⟨_, _, _, h⟩ => h, fun h => ?_⟩
    obtain ⟨i, hi⟩ := Frame.idx?_of_mem (f := f.frame) I.valid
    obtain ⟨j, hj⟩ := Frame.idx?_of_mem (f := f.frame) I.lead
    have c1 := hasCell_cellAt hi (I.wf r hr)
    have c2 := hasCell_cellAt hj (I.wf r hr)
    exact ⟨(cellAt r i, cellAt r j), List.mem_product.mpr ⟨(hv.2 _).mpr ⟨r, hr, c1⟩, (hl.2 _).mpr ⟨r, hr, c2⟩⟩,
      ⟨c1, c2⟩, h⟩
  rw [hrows, List.map_append, List.sum_append, List.map_map]
  have e1 : ((valids ×ˢ leads).map (T ∘ fun k => pooled k.1 k.2)) =
      (valids ×ˢ leads).map (fun k => ((regionGroup f.frame var value k.1 k.2).map T).sum) := by
    apply List.map_congr_left
    intro k hk
    exact hTp k hk
  rw [e1]
  have hpart' : ((valids ×ˢ leads).map fun k => ((regionGroup f.frame var value k.1 k.2).map T).sum).sum =
      ((f.frame.rows.filter fun r => decide (InRegion f.frame var value r)).map T).sum := by
    refine Eq.trans (Eq.trans ?_ hpart) ?_
    · congr 1
      apply List.map_congr_left
      intro k _
      unfold regionGroup
      congr 2
      apply List.filter_congr
      intro r _
      rw [decide_eq_decide]
    · congr 2
      apply List.filter_congr
      intro r hr
      rw [decide_eq_decide]
      exact hiff r hr
  rw [hpart']
  have : ∀ (rows : List (List Val)) (P : List Val → Prop),
      ((rows.filter fun r => decide (¬ P r)).map T).sum + ((rows.filter fun r => decide (P r)).map T).sum =
        (rows.map T).sum := by
    intro rows P
    induction rows with
    | nil => simp
    | cons r rows ih =>
      by_cases h : P r
      · simp only [h, not_true, decide_false, decide_true, List.filter_cons_of_pos, List.map_cons, List.sum_cons,
          Bool.false_eq_true, not_false_eq_true, List.filter_cons_of_neg]
        rw [← ih]; ring
      · simp only [h, not_false_eq_true, decide_false, decide_true, List.filter_cons_of_pos, List.map_cons,
          List.sum_cons, Bool.false_eq_true, List.filter_cons_of_neg]
        rw [← ih]; ring
  exact this _ _

theorem lookup_map_self {β : Type} (g : String → β) (l : List String) (c : String) (hc : c ∈ l) :
    (l.map fun c => (c, g c)).lookup c = some (g c) := by
  induction l with
  | nil => simp at hc
  | cons d ds ih =>
    rw [List.map_cons, List.lookup_cons]
    by_cases hd : c = d
    · subst hd; simp
    · have : (c == d) = false := by simpa using hd
      rw [this]
      exact ih (by simpa [hd] using hc)

/-- C85: for the partial-sum line types the fields of an aggregated row are the summed total and the total-weighted
means of the group. -/
theorem C85_group_means (lt : String) (h : SameNames lt) (cols : List String) (g : List (List Val)) (ws : List ℚ)
    (x : String → List Cell) (G : Group lt { cols := cols, rows := g.map rowCells } ws x) :
    ∃ sums, groupSums lt cols g = .ok sums ∧ sums.lookup "total" = some (.num ws.sum "") ∧
      ∀ c ∈ partialSumFields lt, sums.lookup c = some (.num (weightedMean ws (x c)) "") := by
  refine ⟨("total", .num ws.sum "") ::
    (partialSumFields lt).map fun c => (c, .num (weightedMean ws (x c)) ""), ?_, by simp, ?_⟩
  · unfold groupSums seriesSums
    rw [C18_weighted_means_partial lt h _ ws x G]
    simp only [bind, Except.bind, pure, Except.pure, List.headD_cons, List.map_cons, List.map_map, List.zip_cons_cons,
      Except.ok.injEq]
    congr 1
    rw [List.zip_map_right]
    induction partialSumFields lt with
    | nil => rfl
    | cons c cs ih => simp [numVal, ih] 
  · intro c hc
    have hct : c ≠ "total" := by
      rintro rfl
      exact (sameNames_cols h).2.1 hc
    rw [List.lookup_cons]
    have : (c == "total") = false := by simpa using hct
    rw [this]
    exact lookup_map_self _ _ c hc

/-- Two regions at two valid times, and a third region that is not aggregated. -/
def exRegions : IFrame :=
  { cols := ["vx_mask", "fcst_valid_beg", "fcst_lead", "total", "fgbar", "ogbar", "mgbar", "egbar"]
    rows := [(0, [.str "EAST", .str "d1", .num 12 "12", .num 10 "10", .num 1 "1", .num 2 "2", .num 3 "3", .num 4 "4"]),
             (2, [.str "NMT", .str "d1", .num 12 "12", .num 30 "30", .num 5 "5", .num 2 "2", .num 3 "3", .num 4 "4"]),
             (3, [.str "WEST", .str "d1", .num 12 "12", .num 7 "7", .num 1 "1", .num 2 "2", .num 3 "3", .num 4 "4"]),
             (5, [.str "NMT", .str "d2", .num 12 "12", .num 20 "20", .num 2 "2", .num 6 "6", .null, .num 4 "4"])] }

example : RegionInput exRegions "vx_mask" "EAST;NMT" ∧
    OnlyAggregated [("vx_mask", ["EAST;NMT", "WEST"])] "vx_mask" "EAST;NMT" := by
  refine ⟨⟨by unfold FrameWF; decide, by decide, by decide, by decide, by decide, by decide, ?_⟩, ?_⟩
  · have h1 : exRegions.frame.idx? "fcst_valid_beg" = some 1 := by decide +kernel
    have h2 : exRegions.frame.idx? "fcst_lead" = some 2 := by decide +kernel
    intro r hr
    rw [hasCell_iff h1, hasCell_iff h2]
    revert r
    decide +kernel
  · exact ⟨by decide +kernel, [], [], ["WEST"], [], rfl, by simp, by decide +kernel⟩

example : aggregateFieldValues "grad" [("vx_mask", ["EAST;NMT", "WEST"])] exRegions = .ok
    { cols := exRegions.cols
      rows := [(3, [.str "WEST", .str "d1", .num 12 "12", .num 7 "7", .num 1 "1", .num 2 "2", .num 3 "3", .num 4 "4"]),
               (0, [.str "EAST;NMT", .str "d1", .num 12 "12", .num 40 "", .num 4 "", .num 2 "", .num 3 "", .num 4 ""]),
               (0, [.str "EAST;NMT", .str "d2", .num 12 "12", .num 20 "", .num 2 "", .num 6 "", .num 0 "",
                 .num 4 ""])] } := by
  decide +kernel

/-- The line types whose aggregation divides by the summed total. -/
def DividesByTotal (lt : String) : Prop :=
  lt ∈ ["sl1l2", "sal1l2", "vl1l2", "val1l2", "grad", "nbrcnt", "ecnt", "rps"]

theorem sumColumn_empty (cols : List String) (c : String) : sumColumn { cols := cols, rows := [] } c = none := by
  unfold sumColumn columnData
  cases Table.colIdx? _ c <;> simp

theorem weightedField_none (t : Table) (c : String) : ∃ e, weightedField t none c = .error e := by
  unfold weightedField
  split
  · exact ⟨_, rfl⟩
  · exact ⟨_, rfl⟩

theorem seriesMeans_empty (cs : List (String × String)) (hcs : cs ≠ []) (cols : List String) :
    ∃ e, seriesMeans cs { cols := cols, rows := [] } = .error e := by
  obtain ⟨c, cs, rfl⟩ := List.exists_cons_of_ne_nil hcs
  unfold seriesMeans
  rw [sumColumn_empty]
  obtain ⟨e, he⟩ := weightedField_none { cols := cols, rows := [] } c.2
  refine ⟨e, ?_⟩
  simp only [List.mapM_cons, he, bind, Except.bind]

theorem seriesSums_empty (lt : String) (h : DividesByTotal lt) (cols : List String) :
    ∃ e, seriesSums lt { cols := cols, rows := [] } = .error e := by
  have hm : ∀ lt cs, lt ≠ "ctc" ∧ lt ≠ "nbrctc" → meanColumns lt = some cs → cs ≠ [] →
      ∃ e, seriesSums lt { cols := cols, rows := [] } = .error e := by
    intro lt cs ⟨h1, h2⟩ h3 h4
    unfold seriesSums calcSeriesSums
    simp only [h1, h2, or_self, if_false, h3, Option.map_some]
    exact seriesMeans_empty cs h4 cols
  have key : ∀ c, getCol { cols := cols, rows := [] } c = .ok [] ∨
      getCol { cols := cols, rows := [] } c = .error .keyError := by
    intro c
    unfold getCol columnData
    cases Table.colIdx? _ c <;> simp
  simp only [DividesByTotal, List.mem_cons, List.not_mem_nil, or_false] at h
  rcases h with rfl | rfl | rfl | rfl | rfl | rfl | rfl | rfl
  · exact hm _ _ (by decide) rfl (by simp)
  · exact hm _ _ (by decide) rfl (by simp)
  · exact hm _ _ (by decide) rfl (by simp)
  · exact hm _ _ (by decide) rfl (by simp)
  · exact hm _ _ (by decide) rfl (by simp)
  · change ∃ e, seriesSumsNbrcnt _ = .error e
    unfold seriesSumsNbrcnt
    rw [sumColumn_empty]
    rcases key "total" with h | h <;> rcases key "fbs" with h' | h' <;>
      simp [h, h', bind, Except.bind, divTotal]
  · change ∃ e, seriesSumsEcnt _ = .error e
    unfold seriesSumsEcnt
    rw [sumColumn_empty]
    rcases key "rmse" with h1 | h1 <;> rcases key "rmse_oerr" with h2 | h2 <;> rcases key "crps" with h3 | h3 <;>
      rcases key "crpss" with h4 | h4 <;> rcases key "total" with h5 | h5 <;>
      simp [h1, h2, h3, h4, h5, bind, Except.bind, divTotal]
  · change ∃ e, seriesSumsRps _ = .error e
    unfold seriesSumsRps
    rw [sumColumn_empty]
    rcases key "rps" with h1 | h1 <;> rcases key "rpss" with h2 | h2 <;>
      simp only [h1, h2, bind, Except.bind, Except.error.injEq, exists_eq']
    obtain ⟨e, he⟩ := weightedField_none { cols := cols, rows := [] } "rps"
    exact ⟨e, by simp only [he]⟩

theorem groupSums_empty (lt : String) (h : DividesByTotal lt) (cols : List String) :
    ∃ e, groupSums lt cols [] = .error e := by
  obtain ⟨e, he⟩ := seriesSums_empty lt h cols
  exact ⟨e, by simp [groupSums, he, bind, Except.bind]⟩

theorem fold_missing {κ : Type} (lt : String) (cols : List String) (sel : κ → List Val → Bool) (i : ℕ) (name : Val)
    (k : κ) (hlt : DividesByTotal lt) (hname : ∀ r : List Val, sel k (r.set i name) = false)
    (keys : List κ) (hk : k ∈ keys) (rows : List (ℕ × List Val)) (hrows : ∀ r ∈ rows, sel k r.2 = false) :
    ∃ e, keys.foldlM (fun rows k => aggregateStep lt cols (sel k) i name rows) rows = .error e := by
  induction keys generalizing rows with
  | nil => simp at hk
  | cons k' ks ih =>
    rw [List.foldlM_cons]
    by_cases hkk : k = k'
    · subst hkk
      obtain ⟨e, he⟩ := groupSums_empty lt hlt cols
      refine ⟨e, ?_⟩
      have : rows.filter (fun r => sel k r.2) = [] := by
        rw [List.filter_eq_nil_iff]; intro r hr; simp [hrows r hr]
      simp [aggregateStep, this, he, bind, Except.bind]
    · have hk' : k ∈ ks := by simpa [hkk] using hk
      cases hs : aggregateStep lt cols (sel k') i name rows with
      | error e => exact ⟨e, rfl⟩
      | ok rows' =>
        simp only [bind, Except.bind]
        apply ih hk'
        unfold aggregateStep at hs
        simp only [bind, Except.bind, pure, Except.pure] at hs
        split at hs
        · simp at hs
        · simp only [Except.ok.injEq] at hs
          subst hs
          intro r hr
          rcases List.mem_append.mp hr with h | h
          · exact hrows r (List.mem_filter.mp h).1
          · simp only [List.mem_singleton] at h
            subst h
            exact hname _

/-- C86 is false, and this is its extent: whenever some lead is missing at some valid time (for all the listed
regions) the aggregation of every line type other than the contingency tables raises. -/
theorem C86_missing_lead_raises (lt var value : String) (series : List (String × List String)) (f : IFrame)
    (I : RegionInput f var value) (hser : OnlyAggregated series var value) (hlt : DividesByTotal lt) (valid lead : Val)
    (hv : ∃ r ∈ f.frame.rows, HasCell f.frame r "fcst_valid_beg" valid)
    (hl : ∃ r ∈ f.frame.rows, HasCell f.frame r "fcst_lead" lead)
    (hg : ∀ r ∈ f.frame.rows, AtTime f.frame valid lead r → ¬ InRegion f.frame var value r) :
    ∃ e, aggregateFieldValues lt series f = .error e := by
  obtain ⟨v, hvi⟩ := Frame.idx?_of_mem (f := f.frame) I.valid
  obtain ⟨l, hli⟩ := Frame.idx?_of_mem (f := f.frame) I.lead
  obtain ⟨i, hi⟩ := Frame.idx?_of_mem (f := f.frame) I.var_mem
  set sel : Val × Val → List Val → Bool := fun k r =>
    eqCell (cellAt r v) k.1 && eqCell (cellAt r l) k.2 && isinTexts (cellAt r i) (semiParts value) with hsel
  have hset : ∀ r : List Val, sel (valid, lead) (r.set i (.str value)) = false := by
    intro r
    have : isinTexts (cellAt (r.set i (.str value)) i) (semiParts value) = false := by
      unfold cellAt
      rw [List.getElem?_set_self']
      cases r[i]? with
      | none => rfl
      | some _ => exact isinTexts_self hser.1
    simp [hsel, this]
  have hnone : ∀ r ∈ f.rows, sel (valid, lead) r.2 = false := by
    intro r hr
    have hm : r.2 ∈ f.frame.rows := List.mem_map_of_mem hr
    by_contra hs
    have hs : sel (valid, lead) r.2 = true := by simpa using hs
    simp only [hsel, Bool.and_eq_true, eqCell_iff, isinTexts_iff] at hs
    obtain ⟨⟨⟨-, a⟩, -, b⟩, s, hs1, hs2⟩ := hs
    exact hg r.2 hm ⟨a ▸ hasCell_cellAt hvi (I.wf r.2 hm), b ▸ hasCell_cellAt hli (I.wf r.2 hm)⟩
      ⟨s, hs1, hs2 ▸ hasCell_cellAt hi (I.wf r.2 hm)⟩
  have hmem : (valid, lead) ∈ uniqueVals (f.rows.map fun r => cellAt r.2 v) ×ˢ
      uniqueVals (f.rows.map fun r => cellAt r.2 l) := by
    obtain ⟨r, hr, h1⟩ := hv
    obtain ⟨s, hs, h2⟩ := hl
    obtain ⟨r', hr', rfl⟩ := List.mem_map.mp hr
    obtain ⟨s', hs', rfl⟩ := List.mem_map.mp hs
    rw [List.mem_product, mem_uniqueVals, mem_uniqueVals, List.mem_map, List.mem_map]
    exact ⟨⟨r', hr', hasCell_unique hvi h1⟩, ⟨s', hs', hasCell_unique hli h2⟩⟩
  obtain ⟨e, he⟩ := fold_missing lt f.cols sel i (.str value) (valid, lead) hlt hset _ hmem f.rows hnone
  refine ⟨e, ?_⟩
  unfold aggregateFieldValues
  simp only [hvi, hli, bind, Except.bind]
  rw [fold_onlyAggregated (fun p x g => aggregateValue lt v l _ _ p x g) series var value f hser]
  unfold aggregateValue
  simp only [I.var_ne, ne_eq, not_false_eq_true, if_true, IFrame.col, Frame.col, hi, bind, Except.bind]
  simp only [hsel] at he
  rw [he]

/-- Two valid times, of which only the first has lead 24. -/
def exMissingLead : IFrame :=
  { cols := ["vx_mask", "fcst_valid_beg", "fcst_lead", "total", "fgbar", "ogbar", "mgbar", "egbar"]
    rows := [(0, [.str "EAST", .str "d1", .num 12 "12", .num 10 "10", .num 1 "1", .num 2 "2", .num 3 "3", .num 4 "4"]),
             (1, [.str "EAST", .str "d1", .num 24 "24", .num 30 "30", .num 5 "5", .num 2 "2", .num 3 "3", .num 4 "4"]),
             (2, [.str "NMT", .str "d2", .num 12 "12", .num 7 "7", .num 1 "1", .num 2 "2", .num 3 "3", .num 4 "4"])] }

/-- C86: a concrete case. -/
theorem C86_missing_lead_counterexample :
    aggregateFieldValues "grad" [("vx_mask", ["EAST;NMT"])] exMissingLead = .error .typeError := by
  decide +kernel

/-- C86: for contingency tables the same situation adds a row without valid time. -/
theorem C86_missing_lead_ctc_counterexample : ∃ out,
    aggregateFieldValues "ctc" [("vx_mask", ["EAST;NMT"])] exMissingLead = .ok out ∧
      ∃ r ∈ out.frame.rows, HasCell out.frame r "fcst_valid_beg" .null := by
  refine ⟨_, rfl, [.str "EAST;NMT", .null, .null, .null, .null, .null, .null, .null], ?_, ?_⟩
  · decide +kernel
  · exact ⟨1, by decide +kernel, by decide +kernel, by decide +kernel⟩

/-- Four regions at one time; the second aggregated value contains the region of the first row. -/
def exFourRegions : IFrame :=
  { cols := ["vx_mask", "fcst_valid_beg", "fcst_lead", "total", "fgbar", "ogbar", "mgbar", "egbar"]
    rows := [(0, [.str "N", .str "d1", .num 12 "12", .num 10 "10", .num 1 "1", .num 2 "2", .num 3 "3", .num 4 "4"]),
             (1, [.str "S", .str "d1", .num 12 "12", .num 30 "30", .num 5 "5", .num 2 "2", .num 3 "3", .num 4 "4"]),
             (2, [.str "E", .str "d1", .num 12 "12", .num 7 "7", .num 1 "1", .num 2 "2", .num 3 "3", .num 4 "4"]),
             (3, [.str "W", .str "d1", .num 12 "12", .num 7 "7", .num 1 "1", .num 2 "2", .num 3 "3", .num 4 "4"])] }

/-- C87 is false: the new row always has the index label 0, and rows are removed by label.  Aggregating "N;S" after
"E;W" removes the aggregated row of "E;W"; in the other order both rows are there. -/
theorem C87_two_values_counterexample :
    (aggregateFieldValues "grad" [("vx_mask", ["E;W", "N;S"])] exFourRegions).map
        (fun o => o.rows.map fun r => cellAt r.2 0) = .ok [.str "N;S"] ∧
    (aggregateFieldValues "grad" [("vx_mask", ["N;S", "E;W"])] exFourRegions).map
        (fun o => o.rows.map fun r => cellAt r.2 0) = .ok [.str "N;S", .str "E;W"] := by
  constructor <;> decide +kernel

/-- Two models and two regions at two valid times. -/
def exTwoVars : IFrame :=
  { cols := ["vx_mask", "model", "fcst_valid_beg", "fcst_lead", "total", "fgbar", "ogbar", "mgbar", "egbar"]
    rows := [(0, [.str "E", .str "A", .str "d1", .num 12 "12", .num 10 "10", .num 1 "1", .num 2 "2", .num 3 "3",
               .num 4 "4"]),
             (1, [.str "W", .str "B", .str "d1", .num 12 "12", .num 30 "30", .num 5 "5", .num 2 "2", .num 3 "3",
               .num 4 "4"]),
             (2, [.str "E", .str "A", .str "d2", .num 12 "12", .num 7 "7", .num 1 "1", .num 2 "2", .num 3 "3",
               .num 4 "4"])] }

/-- C87: with two aggregated variables the second pass removes every row made by the first, and raises as soon as
there are two times. -/
theorem C87_two_variables_counterexample :
    aggregateFieldValues "grad" [("vx_mask", ["E;W"]), ("model", ["A;B"])] exTwoVars = .error .typeError := by
  decide +kernel

end Metcalcpy.Props
