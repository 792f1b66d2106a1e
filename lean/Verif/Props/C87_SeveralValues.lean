/-
C87  Several aggregated values do not disturb each other: what happens for every list of values.
-/
import Verif.Props.C85_AggregateField

namespace Metcalcpy.Props
open Metcalcpy Spec

variable {κ : Type}

/-- The state after the groups `done` have been aggregated, when the new rows of the groups `kept` are still there. -/
def keptState (sel : κ → List Val → Bool) (rec : κ → List Val) (rows : List (ℕ × List Val)) (done kept : List κ) :
    List (ℕ × List Val) :=
  rows.filter (fun r => !done.any (fun k => sel k r.2)) ++ kept.map (fun k => (0, rec k))

/-- One more group: the new rows so far go when the group contains the row with label 0. -/
def keepStep (sel : κ → List Val → Bool) (rows : List (ℕ × List Val)) (kept : List κ) (k : κ) : List κ :=
  if rows.any (fun r => decide (r.1 = 0) && sel k r.2) then [k] else kept ++ [k]

theorem aggregateStep_kept (lt : String) (cols : List String) (sel : κ → List Val → Bool) (i : ℕ) (name : Val)
    (rows : List (ℕ × List Val)) (rec : κ → List Val) (A : κ → List (String × Val)) (done kept : List κ) (k : κ)
    (hlab : (rows.map Prod.fst).Nodup)
    (hdis : ∀ r : List Val, ∀ k', k' ∈ done → sel k r = true → sel k' r = true → False)
    (hrec : ∀ k' ∈ kept, sel k (rec k') = false)
    (hA : groupSums lt cols ((rows.filter (fun r => sel k r.2)).map Prod.snd) = .ok (A k))
    (hk : rec k = (recordSums cols (A k) ((rows.filter (fun r => sel k r.2)).map Prod.snd)).set i name) :
    aggregateStep lt cols (sel k) i name (keptState sel rec rows done kept) =
      .ok (keptState sel rec rows (done ++ [k]) (keepStep sel rows kept k)) := by
  have hp : (keptState sel rec rows done kept).filter (fun r => sel k r.2) = rows.filter (fun r => sel k r.2) := by
    unfold keptState
    rw [List.filter_append, List.filter_filter]
    have h1 : (kept.map (fun k => (0, rec k))).filter (fun r : ℕ × List Val => sel k r.2) = [] := by
      rw [List.filter_eq_nil_iff]
      intro x hx
      obtain ⟨k', hk', rfl⟩ := List.mem_map.mp hx
      simp [hrec k' hk']
    rw [h1, List.append_nil]
    apply List.filter_congr
    intro r _
    by_cases hs : sel k r.2 = true
    · have : done.any (fun k => sel k r.2) = false := by
        rw [List.any_eq_false]
        intro k' hk' h
        exact hdis r.2 k' hk' hs h
      simp [hs, this]
    · simp [Bool.eq_false_iff.mpr hs]
  unfold aggregateStep
  simp only [hp, hA, bind, Except.bind, pure, Except.pure, ← hk]
  congr 1
  unfold keptState
  rw [List.filter_append]
  have e1 : (rows.filter (fun r => !done.any (fun k => sel k r.2))).filter
      (fun r : ℕ × List Val => !((rows.filter (fun r => sel k r.2)).map Prod.fst).contains r.1) =
      rows.filter (fun r => !(done ++ [k]).any (fun k => sel k r.2)) := by
    rw [List.filter_filter]
    apply List.filter_congr
    intro r hr
    have : (((rows.filter (fun r => sel k r.2)).map Prod.fst).contains r.1) = sel k r.2 := by
      rw [Bool.eq_iff_iff, List.contains_iff_mem, List.mem_map]
      constructor
      · rintro ⟨s, hs, e⟩
        obtain ⟨hs1, hs2⟩ := List.mem_filter.mp hs
        rw [← nodup_labels hlab hs1 hr e]
        exact hs2
      · intro h
        exact ⟨r, List.mem_filter.mpr ⟨hr, h⟩, rfl⟩
    rw [this, List.any_append]
    simp [Bool.and_comm]
  have e3 : ((rows.filter (fun r => sel k r.2)).map Prod.fst).contains 0 = rows.any (fun r => decide (r.1 = 0) && sel k r.2) := by
    rw [Bool.eq_iff_iff, List.contains_iff_mem, List.mem_map, List.any_eq_true]
    constructor
    · rintro ⟨s, hs, e⟩
      obtain ⟨hs1, hs2⟩ := List.mem_filter.mp hs
      exact ⟨s, hs1, by simp [e, hs2]⟩
    · rintro ⟨s, hs, e⟩
      simp only [Bool.and_eq_true, decide_eq_true_eq] at e
      exact ⟨s, List.mem_filter.mpr ⟨hs, e.2⟩, e.1⟩
  have e2 : (kept.map (fun k => (0, rec k))).filter
      (fun r : ℕ × List Val => !((rows.filter (fun r => sel k r.2)).map Prod.fst).contains r.1) ++ [(0, rec k)] =
      (keepStep sel rows kept k).map (fun k => (0, rec k)) := by
    rw [List.filter_map]
    have : ((fun r : ℕ × List Val => !((rows.filter (fun r => sel k r.2)).map Prod.fst).contains r.1) ∘ fun k => (0, rec k)) =
        fun _ => !rows.any (fun r => decide (r.1 = 0) && sel k r.2) := by
      funext k'
      simp only [Function.comp, e3]
    rw [this]
    unfold keepStep
    cases rows.any (fun r => decide (r.1 = 0) && sel k r.2) <;> simp
  rw [e1, List.append_assoc, e2]

theorem kept_fold (lt : String) (cols : List String) (sel : κ → List Val → Bool) (i : ℕ) (name : κ → Val)
    (rows : List (ℕ × List Val)) (rec : κ → List Val) (A : κ → List (String × Val)) (keys : List κ)
    (hlab : (rows.map Prod.fst).Nodup) (hnd : keys.Nodup)
    (hdis : ∀ r : List Val, ∀ k ∈ keys, ∀ k' ∈ keys, sel k r = true → sel k' r = true → k = k')
    (hrec : ∀ k ∈ keys, ∀ k' ∈ keys, sel k (rec k') = false)
    (hA : ∀ k ∈ keys, groupSums lt cols ((rows.filter (fun r => sel k r.2)).map Prod.snd) = .ok (A k))
    (hk : ∀ k ∈ keys,
      rec k = (recordSums cols (A k) ((rows.filter (fun r => sel k r.2)).map Prod.snd)).set i (name k)) :
    keys.foldlM (fun rows k => aggregateStep lt cols (sel k) i (name k) rows) rows =
      .ok (keptState sel rec rows keys (keys.foldl (keepStep sel rows) [])) := by
  have gen : ∀ todo done kept : List κ, keys = done ++ todo → (∀ k ∈ kept, k ∈ keys) →
      todo.foldlM (fun rows k => aggregateStep lt cols (sel k) i (name k) rows) (keptState sel rec rows done kept) =
        .ok (keptState sel rec rows keys (todo.foldl (keepStep sel rows) kept)) := by
    intro todo
    induction todo with
    | nil => intro done kept h _; simp at h; subst h; rfl
    | cons k todo ih =>
      intro done kept h hkept
      have hkk : k ∈ keys := by rw [h]; simp
      have hnot : k ∉ done := by
        intro hm
        rw [h] at hnd
        have := List.nodup_append.mp hnd
        exact this.2.2 k hm k (by simp) rfl
      rw [List.foldlM_cons, aggregateStep_kept lt cols sel i (name k) rows rec A done kept k hlab]
      · simp only [bind, Except.bind, List.foldl_cons]
        refine ih (done ++ [k]) _ (by rw [h]; simp) ?_
        intro k' hk'
        unfold keepStep at hk'
        split at hk'
        · simp only [List.mem_singleton] at hk'; subst hk'; exact hkk
        · rcases List.mem_append.mp hk' with h' | h'
          · exact hkept _ h'
          · simp only [List.mem_singleton] at h'; subst h'; exact hkk
      · intro r k' hk' h1 h2
        exact hnot (hdis r k hkk k' (by rw [h]; simp [hk']) h1 h2 ▸ hk')
      · intro k' hk'
        exact hrec k hkk k' (hkept k' hk')
      · exact hA k hkk
      · exact hk k hkk
  have := gen keys [] [] rfl (by simp)
  have e : keptState sel rec rows [] [] = rows := by simp [keptState]
  rwa [e] at this

theorem kept_all (sel : κ → List Val → Bool) (rows : List (ℕ × List Val)) (keys kept : List κ)
    (h : ∀ k ∈ keys, ∀ r ∈ rows, r.1 = 0 → sel k r.2 = false) : keys.foldl (keepStep sel rows) kept = kept ++ keys := by
  induction keys generalizing kept with
  | nil => simp
  | cons k keys ih =>
    rw [List.foldl_cons, ih _ (fun k' hk' => h k' (by simp [hk']))]
    have : rows.any (fun r => decide (r.1 = 0) && sel k r.2) = false := by
      rw [List.any_eq_false]
      intro r hr hh
      simp only [Bool.and_eq_true, decide_eq_true_eq] at hh
      rw [h k (by simp) r hr hh.1] at hh
      exact absurd hh.2 (by simp)
    simp [keepStep, this]

theorem kept_from (sel : κ → List Val → Bool) (rows : List (ℕ × List Val)) (a b : List κ) (k : κ) (r : ℕ × List Val) (hr : r ∈ rows)
    (h0 : r.1 = 0) (hs : sel k r.2 = true) (h : ∀ k ∈ b, ∀ r ∈ rows, r.1 = 0 → sel k r.2 = false) :
    (a ++ k :: b).foldl (keepStep sel rows) [] = k :: b := by
  rw [List.foldl_append, List.foldl_cons, kept_all sel rows b _ h]
  have : rows.any (fun r => decide (r.1 = 0) && sel k r.2) = true := by
    rw [List.any_eq_true]
    exact ⟨r, hr, by simp [h0, hs]⟩
  simp [keepStep, this]

/-- The aggregated values (values containing ';') of the series are `values`, all of the variable `var`. -/
def AggregatedValues (series : List (String × List String)) (var : String) (values : List String) : Prop :=
  ∃ s₁ vals s₂, series = s₁ ++ (var, vals) :: s₂ ∧ (∀ p ∈ s₁ ++ s₂, ∀ x ∈ p.2, hasSemi x = false) ∧
    vals.filter (fun x => hasSemi x) = values

theorem fold_filter_semi (g : String → IFrame → Except PyErr IFrame) (vals : List String) (f : IFrame) :
    vals.foldlM (fun f value => if hasSemi value then g value f else .ok f) f =
      (vals.filter (fun x => hasSemi x)).foldlM (fun f value => g value f) f := by
  induction vals generalizing f with
  | nil => rfl
  | cons x xs ih =>
    rw [List.foldlM_cons]
    by_cases h : hasSemi x = true
    · rw [List.filter_cons_of_pos (by simpa using h), List.foldlM_cons]
      simp only [h, if_true, bind, Except.bind]
      cases g x f with
      | error e => rfl
      | ok f' => exact ih f'
    · rw [List.filter_cons_of_neg (by simpa using h)]
      simp only [h, bind, Except.bind]
      exact ih f

theorem fold_aggregatedValues (g : String → String → IFrame → Except PyErr IFrame)
    (series : List (String × List String)) (var : String) (values : List String) (f : IFrame)
    (h : AggregatedValues series var values) :
    series.foldlM (fun f p => p.2.foldlM (fun f value => if hasSemi value then g p.1 value f else .ok f) f) f =
      values.foldlM (fun f value => g var value f) f := by
  obtain ⟨s₁, vals, s₂, rfl, h1, rfl⟩ := h
  rw [List.foldlM_append, fold_noSemi g s₁ f fun p hp => h1 p (by simp [hp])]
  simp only [bind, Except.bind]
  rw [List.foldlM_cons]
  simp only [fold_filter_semi (g var)]
  simp only [bind, Except.bind]
  cases hg : (vals.filter (fun x => hasSemi x)).foldlM (fun f value => g var value f) f with
  | error e => rfl
  | ok f' =>
    simp only
    exact fold_noSemi g s₂ f' fun p hp => h1 p (by simp [hp])

theorem foldlM_flatMap {α β σ : Type} (l : List α) (h : α → List β) (g : σ → β → Except PyErr σ) (s : σ) :
    (l.flatMap h).foldlM g s = l.foldlM (fun s a => (h a).foldlM g s) s := by
  induction l generalizing s with
  | nil => rfl
  | cons a l ih =>
    rw [List.flatMap_cons, List.foldlM_append, List.foldlM_cons]
    congr 1
    funext s'
    exact ih s'

/-- Values of the list that share no part. -/
def DisjointValues (values : List String) : Prop :=
  values.Nodup ∧ ∀ v ∈ values, ∀ w ∈ values, v ≠ w → ∀ s, s ∈ semiParts v → s ∉ semiParts w

open Classical in
/-- C87, what remains true: for any list of aggregated values of one variable that share no part, the result has the rows
outside all listed regions, and then, for every value in `survivors`, one pooled row for every valid time and lead.  All
values survive when the first row of the input has another label than 0 or is in none of the regions; otherwise
exactly the value of the first row and the values listed after it survive: the rows of the values listed before are lost. -/
theorem C87_survivors_partial (lt var : String) (series : List (String × List String)) (f : IFrame) (values : List String)
    (I : RegionInput f var "") (hser : AggregatedValues series var values) (hdisj : DisjointValues values)
    (sums : String → Val → Val → List (String × Val))
    (hsums : ∀ value ∈ values, ∀ valid lead, (∃ r ∈ f.frame.rows, HasCell f.frame r "fcst_valid_beg" valid) →
      (∃ r ∈ f.frame.rows, HasCell f.frame r "fcst_lead" lead) →
      regionGroup f.frame var value valid lead ≠ [] ∧
      groupSums lt f.cols (regionGroup f.frame var value valid lead) = .ok (sums value valid lead)) :
    ∃ (out : IFrame) (valids leads : List Val) (pooled : String → Val → Val → List Val) (survivors : List String),
      aggregateFieldValues lt series f = .ok out ∧ out.cols = f.cols ∧
      ListsValues f.frame "fcst_valid_beg" valids ∧ ListsValues f.frame "fcst_lead" leads ∧
      out.frame.rows = f.frame.rows.filter (fun r => decide (∀ value ∈ values, ¬ InRegion f.frame var value r)) ++
        survivors.flatMap (fun value => (valids ×ˢ leads).map (fun k => pooled value k.1 k.2)) ∧
      (∀ value ∈ values, ∀ valid ∈ valids, ∀ lead ∈ leads, ∃ first rest,
        regionGroup f.frame var value valid lead = first :: rest ∧
        IsPooledRow f.frame var value (sums value valid lead) first (pooled value valid lead)) ∧
      ((∀ r, f.rows.head? = some (0, r) → ∀ value ∈ values, ¬ InRegion f.frame var value r) → survivors = values) ∧
      ∀ r before value after, f.rows.head? = some (0, r) → values = before ++ value :: after → InRegion f.frame var value r →
        survivors = value :: after := by
  obtain ⟨v, hv⟩ := Frame.idx?_of_mem (f := f.frame) I.valid
  obtain ⟨l, hl⟩ := Frame.idx?_of_mem (f := f.frame) I.lead
  obtain ⟨i, hi⟩ := Frame.idx?_of_mem (f := f.frame) I.var_mem
  have hsemi : ∀ value ∈ values, hasSemi value = true := by
    obtain ⟨_, vals, _, -, -, rfl⟩ := hser
    intro value h
    exact (List.mem_filter.mp h).2
  have wf' : ∀ r ∈ f.rows, r.2.length = f.frame.cols.length := fun r hr => I.wf r.2 (List.mem_map_of_mem hr)
  set valids := uniqueVals (f.rows.map fun r => cellAt r.2 v) with hvalids
  set leads := uniqueVals (f.rows.map fun r => cellAt r.2 l) with hleads
  set sel : String × Val × Val → List Val → Bool := fun k r =>
    eqCell (cellAt r v) k.2.1 && eqCell (cellAt r l) k.2.2 && isinTexts (cellAt r i) (semiParts k.1) with hsel
  have hlv : ListsValues f.frame "fcst_valid_beg" valids := by
    refine ⟨uniqueVals_nodup _, fun x => ?_⟩
    rw [hvalids, mem_uniqueVals, List.mem_map]
    constructor
    · rintro ⟨r, hr, rfl⟩
      exact ⟨r.2, List.mem_map_of_mem hr, hasCell_cellAt hv (wf' r hr)⟩
    · rintro ⟨r, hr, h⟩
      obtain ⟨s, hs, rfl⟩ := List.mem_map.mp hr
      exact ⟨s, hs, hasCell_unique hv h⟩
  have hll : ListsValues f.frame "fcst_lead" leads := by
    refine ⟨uniqueVals_nodup _, fun x => ?_⟩
    rw [hleads, mem_uniqueVals, List.mem_map]
    constructor
    · rintro ⟨r, hr, rfl⟩
      exact ⟨r.2, List.mem_map_of_mem hr, hasCell_cellAt hl (wf' r hr)⟩
    · rintro ⟨r, hr, h⟩
      obtain ⟨s, hs, rfl⟩ := List.mem_map.mp hr
      exact ⟨s, hs, hasCell_unique hl h⟩
  have hselg : ∀ r ∈ f.frame.rows, ∀ k, (sel k r = true ↔
      AtTime f.frame k.2.1 k.2.2 r ∧ InRegion f.frame var k.1 r) := by
    intro r hr k
    have hn := I.times r hr
    have hreg : isinTexts (cellAt r i) (semiParts k.1) = true ↔ InRegion f.frame var k.1 r := by
      rw [isinTexts_iff]
      unfold InRegion
      simp only [hasCell_iff_cellAt hi (I.wf r hr)]
    simp only [hasCell_iff_cellAt hv (I.wf r hr), hasCell_iff_cellAt hl (I.wf r hr)] at hn
    simp only [hsel, Bool.and_eq_true, eqCell_iff, hreg, AtTime,
      hasCell_iff_cellAt hv (I.wf r hr), hasCell_iff_cellAt hl (I.wf r hr)]
    tauto
  have hgroup : ∀ k, (f.rows.filter (fun r => sel k r.2)).map Prod.snd =
      regionGroup f.frame var k.1 k.2.1 k.2.2 := by
    intro k
    unfold regionGroup
    have : f.frame.rows = f.rows.map Prod.snd := rfl
    rw [this, List.filter_map]
    congr 1
    apply List.filter_congr
    intro r hr
    have := hselg r.2 (List.mem_map_of_mem hr) k
    simp only [Function.comp]
    rw [Bool.eq_iff_iff, this, decide_eq_true_iff]
  set rec : String × Val × Val → List Val := fun k =>
    (recordSums f.cols (sums k.1 k.2.1 k.2.2) (regionGroup f.frame var k.1 k.2.1 k.2.2)).set i (.str k.1) with hrecdef
  set keysOf : List String → List (String × Val × Val) := fun vs => vs.flatMap (fun value => (valids ×ˢ leads).map (fun k => (value, k)))
    with hkeysOf
  have hmem : ∀ vs k, k ∈ keysOf vs ↔ k.1 ∈ vs ∧ k.2.1 ∈ valids ∧ k.2.2 ∈ leads := by
    intro vs k
    simp only [hkeysOf, List.mem_flatMap, List.mem_map]
    constructor
    · rintro ⟨value, h1, p, h2, rfl⟩
      exact ⟨h1, List.mem_product.mp h2⟩
    · rintro ⟨h1, h2, h3⟩
      exact ⟨k.1, h1, k.2, List.mem_product.mpr ⟨h2, h3⟩, rfl⟩
  have hkeys : ∀ k ∈ keysOf values, regionGroup f.frame var k.1 k.2.1 k.2.2 ≠ [] ∧
      groupSums lt f.cols (regionGroup f.frame var k.1 k.2.1 k.2.2) = .ok (sums k.1 k.2.1 k.2.2) := by
    intro k hk
    obtain ⟨h1, h2, h3⟩ := (hmem _ _).mp hk
    exact hsums k.1 h1 k.2.1 k.2.2 ((hlv.2 _).mp h2) ((hll.2 _).mp h3)
  have hgwf : ∀ k : String × Val × Val, ∀ r ∈ regionGroup f.frame var k.1 k.2.1 k.2.2, r.length = f.frame.cols.length := by
    intro k r hr
    exact I.wf r (List.mem_filter.mp hr).1
  have hlab : (f.rows.map Prod.fst).Nodup := I.labels.imp (fun h => Nat.ne_of_lt h)
  have hnd : (keysOf values).Nodup := by
    rw [hkeysOf, List.nodup_flatMap]
    refine ⟨fun x _ => ?_, ?_⟩
    · exact (List.Nodup.product hlv.1 hll.1).map (fun a b h => (Prod.ext_iff.mp h).2)
    · refine hdisj.1.imp ?_
      intro a b hab k h1 h2
      obtain ⟨_, -, rfl⟩ := List.mem_map.mp h1
      obtain ⟨_, -, h⟩ := List.mem_map.mp h2
      exact hab (Prod.ext_iff.mp h).1.symm
  have hdis : ∀ r : List Val, ∀ k ∈ keysOf values, ∀ k' ∈ keysOf values, sel k r = true → sel k' r = true → k = k' := by
    intro r k hk k' hk' h1 h2
    simp only [hsel, Bool.and_eq_true, eqCell_iff, isinTexts_iff] at h1 h2
    obtain ⟨⟨a1, a2⟩, s, hs, es⟩ := h1
    obtain ⟨⟨b1, b2⟩, s', hs', es'⟩ := h2
    have e : s = s' := by
      rw [es] at es'
      simpa using es'
    subst e
    have hval : k.1 = k'.1 := by
      by_contra hne
      exact hdisj.2 _ ((hmem _ _).mp hk).1 _ ((hmem _ _).mp hk').1 hne s hs hs'
    exact Prod.ext hval (Prod.ext (a1.2.symm.trans b1.2) (a2.2.symm.trans b2.2))
  have hreccell : ∀ k, cellAt (rec k) i = .str k.1 := by
    intro k
    have hlen : (recordSums f.cols (sums k.1 k.2.1 k.2.2) (regionGroup f.frame var k.1 k.2.1 k.2.2)).length =
      f.cols.length := recordSums_length (f := f.frame) (hgwf k)
    have hil := Frame.idx?_lt hi
    rw [hrecdef]
    unfold cellAt
    rw [List.getElem?_set_self (by rw [hlen]; exact hil)]
    rfl
  have hfold := kept_fold lt f.cols sel i (fun k => .str k.1) f.rows rec (fun k => sums k.1 k.2.1 k.2.2) (keysOf values)
    hlab hnd hdis
    (by
      intro k _ k' hk'
      have : isinTexts (cellAt (rec k') i) (semiParts k.1) = false := by
        rw [hreccell, Bool.eq_false_iff]
        intro h
        obtain ⟨s, hs, e⟩ := (isinTexts_iff _ _).mp h
        have e' : k'.1 = s := by simpa using e
        have h1 := hasSemi_of_mem_semiParts hs
        rw [← e', hsemi _ ((hmem _ _).mp hk').1] at h1
        exact absurd h1 (by simp)
      simp only [hsel, this, Bool.and_false])
    (by
      intro k hk
      rw [hgroup]
      exact (hkeys k hk).2)
    (by
      intro k _
      rw [hgroup])
  have hheadZero : ∀ r ∈ f.rows, r.1 = 0 → f.rows.head? = some r := by
    intro r hr h0
    cases hf : f.rows with
    | nil => rw [hf] at hr; simp at hr
    | cons s ss =>
      rw [hf] at hr
      have hp := I.labels
      rw [hf, List.map_cons, List.pairwise_cons] at hp
      rcases List.mem_cons.mp hr with rfl | hm
      · rfl
      · have := hp.1 r.1 (List.mem_map_of_mem hm)
        omega
  -- the surviving values
  obtain ⟨survivors, hs1, hs2, hs3⟩ : ∃ survivors : List String,
      (keysOf values).foldl (keepStep sel f.rows) [] = keysOf survivors ∧
      ((∀ r, f.rows.head? = some (0, r) → ∀ value ∈ values, ¬ InRegion f.frame var value r) → survivors = values) ∧
      ∀ r before value after, f.rows.head? = some (0, r) → values = before ++ value :: after → InRegion f.frame var value r →
        survivors = value :: after := by
    by_cases hz : ∃ r, f.rows.head? = some (0, r) ∧ ∃ value ∈ values, InRegion f.frame var value r
    · obtain ⟨r, hr, value, hvalue, hin⟩ := hz
      obtain ⟨before, after, hsplit⟩ := List.append_of_mem hvalue
      have hrm : (0, r) ∈ f.rows := List.mem_of_mem_head? hr
      have hrf : r ∈ f.frame.rows := List.mem_map_of_mem (f := Prod.snd) hrm
      have c1 := hasCell_cellAt hv (I.wf r hrf)
      have c2 := hasCell_cellAt hl (I.wf r hrf)
      have h1 : valids.head? = some (cellAt r v) := by
        rw [hvalids, uniqueVals_head?, List.head?_map, hr]; rfl
      have h2 : leads.head? = some (cellAt r l) := by
        rw [hleads, uniqueVals_head?, List.head?_map, hr]; rfl
      have hselr : sel (value, cellAt r v, cellAt r l) r = true := (hselg r hrf _).mpr ⟨⟨c1, c2⟩, hin⟩
      obtain ⟨vs, e1⟩ := List.head?_eq_some_iff.mp h1
      obtain ⟨ls, e2⟩ := List.head?_eq_some_iff.mp h2
      obtain ⟨rest, e3⟩ : ∃ rest, keysOf (value :: after) = (value, cellAt r v, cellAt r l) :: rest := by
        rw [hkeysOf]
        simp only [List.flatMap_cons]
        rw [e1, e2, List.product_cons]
        exact ⟨_, rfl⟩
      have e4 : keysOf values = keysOf before ++ (value, cellAt r v, cellAt r l) :: rest := by
        rw [hsplit, ← e3, hkeysOf]
        simp only [List.flatMap_append]
      have unique : ∀ b' v' a', values = b' ++ v' :: a' → InRegion f.frame var v' r → v' = value := by
        rintro b' v' a' e ⟨s, hs, hc⟩
        obtain ⟨s', hs', hc'⟩ := hin
        by_contra hne
        have : s = s' := by simpa using (hasCell_unique hi hc).symm.trans (hasCell_unique hi hc')
        subst this
        exact hdisj.2 v' (by rw [e]; simp) value hvalue hne s hs hs'
      refine ⟨value :: after, ?_, fun h => absurd hin (h r hr value hvalue), ?_⟩
      · rw [e4, e3]
        refine kept_from sel f.rows _ _ _ (0, r) hrm rfl hselr ?_
        intro k hk r' hr' h0
        by_contra hne
        have hne : sel k r'.2 = true := by simpa using hne
        have er : (0, r) = r' := by
          have := hheadZero r' hr' h0
          rw [hr] at this
          simpa using this
        subst er
        have hkm : k ∈ keysOf values := by rw [e4]; simp [hk]
        have := hdis r k hkm (value, cellAt r v, cellAt r l) (by rw [e4]; simp) hne hselr
        subst this
        rw [e4] at hnd
        have hnd' := (List.nodup_append.mp hnd).2.1
        exact (List.nodup_cons.mp hnd').1 hk
      · intro r' b' v' a' hr' e hin'
        have er : r = r' := by
          rw [hr] at hr'
          simpa using hr'
        subst er
        have ev := unique b' v' a' e hin'
        subst ev
        have := hdisj.1
        rw [e] at hsplit
        rw [e] at this
        have hb : v' ∉ b' := fun hm => (List.nodup_append.mp this).2.2 v' hm v' (by simp) rfl
        have this2 := this
        rw [hsplit] at this2
        have hb2 : v' ∉ before := fun hm => (List.nodup_append.mp this2).2.2 v' hm v' (by simp) rfl
        have key : ∀ b c : List String, v' ∉ b → (b ++ v' :: c).dropWhile (fun x => decide (x ≠ v')) = v' :: c := by
          intro b c h
          rw [List.dropWhile_append_of_pos]
          · simp
          · intro x hx
            simp only [decide_eq_true_eq]
            rintro rfl
            exact h hx
        rw [← key before after hb2, ← hsplit, key b' a' hb]
    · refine ⟨values, ?_, fun _ => rfl, ?_⟩
      · rw [kept_all, List.nil_append]
        intro k hk r hr h0
        by_contra hne
        have hne : sel k r.2 = true := by simpa using hne
        have hh := hheadZero r hr h0
        refine hz ⟨r.2, by rw [hh, ← h0], k.1, ((hmem _ _).mp hk).1, ((hselg r.2 (List.mem_map_of_mem hr) k).mp hne).2⟩
      · intro r b value a hr e hin
        exact absurd ⟨r, hr, value, by rw [e]; simp, hin⟩ hz
  refine ⟨{ f with rows := keptState sel rec f.rows (keysOf values) (keysOf survivors) }, valids, leads, fun a b c => rec (a, b, c), survivors,
    ?_, rfl, hlv, hll, ?_, ?_, hs2, hs3⟩
  · unfold aggregateFieldValues
    simp only [hv, hl, bind, Except.bind]
    rw [fold_aggregatedValues (fun p x g => aggregateValue lt v l _ _ p x g) series var values f hser]
    rw [hs1] at hfold
    rw [hkeysOf, foldlM_flatMap] at hfold
    simp only [List.foldlM_map] at hfold
    have lift : ∀ (vs : List String) (rows : List (ℕ × List Val)),
        vs.foldlM (fun g value => aggregateValue lt v l valids leads var value g) { f with rows := rows } =
          (vs.foldlM (fun s value => (valids ×ˢ leads).foldlM (fun rows k =>
            aggregateStep lt f.cols (sel (value, k)) i (.str value) rows) s) rows).map (fun rows => { f with rows := rows }) := by
      intro vs
      induction vs with
      | nil => intro rows; rfl
      | cons a vs ih =>
        intro rows
        rw [List.foldlM_cons, List.foldlM_cons]
        have e : aggregateValue lt v l valids leads var a { f with rows := rows } =
            ((valids ×ˢ leads).foldlM (fun rows k => aggregateStep lt f.cols (sel (a, k)) i (.str a) rows) rows).map
              (fun rows => { f with rows := rows }) := by
          unfold aggregateValue
          have hi' : IFrame.col { f with rows := rows } var = .ok i := by
            have : (IFrame.frame { f with rows := rows }).idx? var = some i := hi
            simp only [IFrame.col, Frame.col, this]
          simp only [I.var_ne, ne_eq, not_false_eq_true, if_true, hi', bind, Except.bind]
          simp only [hsel]
          cases (valids ×ˢ leads).foldlM (fun rows k => aggregateStep lt f.cols (fun r =>
            eqCell (cellAt r v) k.1 && eqCell (cellAt r l) k.2 && isinTexts (cellAt r i) (semiParts a)) i (.str a) rows) rows <;> rfl
        rw [e]
        simp only [bind, Except.bind]
        cases (valids ×ˢ leads).foldlM (fun rows k => aggregateStep lt f.cols (sel (a, k)) i (.str a) rows) rows with
        | error e => rfl
        | ok rows' => exact ih rows'
    have := lift values f.rows
    rw [hfold] at this
    exact this
  · change (keptState sel rec f.rows (keysOf values) (keysOf survivors)).map Prod.snd =
      (f.rows.map Prod.snd).filter (fun r => decide (∀ value ∈ values, ¬ InRegion f.frame var value r)) ++ _
    unfold keptState
    rw [List.map_append, List.map_map]
    congr 1
    · rw [List.filter_map]
      congr 1
      apply List.filter_congr
      intro r hr
      have hm : r.2 ∈ f.frame.rows := List.mem_map_of_mem hr
      simp only [Function.comp]
      rw [Bool.eq_iff_iff, decide_eq_true_iff, Bool.not_eq_true', ← Bool.not_eq_true, List.any_eq_true]
      constructor
      · intro h value hvalue hin
        refine h ⟨(value, cellAt r.2 v, cellAt r.2 l), ?_, ?_⟩
        · have c1 := hasCell_cellAt hv (I.wf r.2 hm)
          have c2 := hasCell_cellAt hl (I.wf r.2 hm)
          exact (hmem _ _).mpr ⟨hvalue, (hlv.2 _).mpr ⟨r.2, hm, c1⟩, (hll.2 _).mpr ⟨r.2, hm, c2⟩⟩
        · exact (hselg r.2 hm _).mpr ⟨⟨hasCell_cellAt hv (I.wf r.2 hm), hasCell_cellAt hl (I.wf r.2 hm)⟩, hin⟩
      · rintro h ⟨k, hk, hs⟩
        exact h k.1 ((hmem _ _).mp hk).1 ((hselg r.2 hm k).mp hs).2
    · rw [hkeysOf]
      simp only [List.map_flatMap, List.map_map]
      rfl
  · intro value hvalue a ha b hb
    obtain ⟨h1, _⟩ := hkeys (value, a, b) ((hmem _ _).mpr ⟨hvalue, ha, hb⟩)
    obtain ⟨first, rest, e⟩ := List.exists_cons_of_ne_nil h1
    refine ⟨first, rest, e, ?_⟩
    have := recordSums_pooled f.frame var value i hi (sums value a b) first rest (by
      intro r hr; exact hgwf (value, a, b) r (by simp only [e]; exact hr))
    simp only [hrecdef, e]
    exact this

/-! ### The four regions of C87, aggregated in pairs -/

theorem exFourRegions_group (value : String) (a b : Val) : regionGroup exFourRegions.frame "vx_mask" value a b =
    exFourRegions.frame.rows.filter (fun r => r[1]? == some a && r[2]? == some b && (semiParts value).any fun s => r[0]? == some (.str s)) := by
  have h0 : exFourRegions.frame.idx? "vx_mask" = some 0 := by decide +kernel
  have h1 : exFourRegions.frame.idx? "fcst_valid_beg" = some 1 := by decide +kernel
  have h2 : exFourRegions.frame.idx? "fcst_lead" = some 2 := by decide +kernel
  unfold regionGroup
  apply List.filter_congr
  intro r _
  rw [Bool.eq_iff_iff]
  simp only [decide_eq_true_eq, AtTime, InRegion, hasCell_iff h0, hasCell_iff h1, hasCell_iff h2, Bool.and_eq_true, List.any_eq_true, beq_iff_eq]

theorem exFourRegions_input : RegionInput exFourRegions "vx_mask" "" := by
  refine ⟨by unfold FrameWF; decide, by decide, by decide, by decide, by decide, by decide, ?_⟩
  have h1 : exFourRegions.frame.idx? "fcst_valid_beg" = some 1 := by decide +kernel
  have h2 : exFourRegions.frame.idx? "fcst_lead" = some 2 := by decide +kernel
  intro r hr
  rw [hasCell_iff h1, hasCell_iff h2]
  revert r
  decide +kernel

/-- The hypotheses of `C87_survivors_partial` hold for these regions; "E;W" does not survive "N;S". -/
example : ∃ (out : IFrame) (valids leads : List Val) (pooled : String → Val → Val → List Val),
    aggregateFieldValues "grad" [("vx_mask", ["E;W", "N;S"])] exFourRegions = .ok out ∧
    out.frame.rows.length = 0 + (["N;S"].flatMap (fun value => (valids ×ˢ leads).map (fun k => pooled value k.1 k.2))).length := by
  have h1 : exFourRegions.frame.idx? "fcst_valid_beg" = some 1 := by decide +kernel
  have h2 : exFourRegions.frame.idx? "fcst_lead" = some 2 := by decide +kernel
  have hx : ∀ value ∈ ["E;W", "N;S"], ∃ s, regionGroup exFourRegions.frame "vx_mask" value (.str "d1") (.num 12 "12") ≠ [] ∧
      groupSums "grad" exFourRegions.cols (regionGroup exFourRegions.frame "vx_mask" value (.str "d1") (.num 12 "12")) = .ok s := by
    intro value hv
    simp only [List.mem_cons, List.not_mem_nil, or_false] at hv
    rw [exFourRegions_group]
    rcases hv with rfl | rfl
    · exact ⟨[("total", .num 14 ""), ("fgbar", .num 1 ""), ("ogbar", .num 2 ""), ("mgbar", .num 3 ""), ("egbar", .num 4 "")],
        by decide +kernel, by decide +kernel⟩
    · exact ⟨[("total", .num 40 ""), ("fgbar", .num 4 ""), ("ogbar", .num 2 ""), ("mgbar", .num 3 ""), ("egbar", .num 4 "")],
        by decide +kernel, by decide +kernel⟩
  choose! s hs using hx
  obtain ⟨out, valids, leads, pooled, survivors, e1, -, -, -, e2, -, -, e3⟩ := C87_survivors_partial "grad" "vx_mask"
    [("vx_mask", ["E;W", "N;S"])] exFourRegions ["E;W", "N;S"] exFourRegions_input
    ⟨[], _, [], rfl, by simp, by decide +kernel⟩ ⟨by decide, by decide +kernel⟩ (fun value _ _ => s value)
    (by
      rintro value hv valid lead ⟨r, hr, ha⟩ ⟨r', hr', hb⟩
      rw [hasCell_iff h1] at ha
      rw [hasCell_iff h2] at hb
      have c1 : ∀ r ∈ exFourRegions.frame.rows, r[1]? = some (.str "d1") := by decide +kernel
      have c2 : ∀ r ∈ exFourRegions.frame.rows, r[2]? = some (.num 12 "12") := by decide +kernel
      obtain rfl : Val.str "d1" = valid := by rw [c1 r hr] at ha; simpa using ha
      obtain rfl : Val.num 12 "12" = lead := by rw [c2 r' hr'] at hb; simpa using hb
      exact hs value hv)
  have hsv : survivors = ["N;S"] := by
    refine e3 _ ["E;W"] "N;S" [] rfl rfl ⟨"N", by decide +kernel, ?_⟩
    have h0 : exFourRegions.frame.idx? "vx_mask" = some 0 := by decide +kernel
    rw [hasCell_iff h0]
    rfl
  subst hsv
  refine ⟨out, valids, leads, pooled, e1, ?_⟩
  rw [e2, List.length_append]
  congr 1
  rw [List.length_eq_zero_iff, List.filter_eq_nil_iff]
  intro r hr h
  have h0 : exFourRegions.frame.idx? "vx_mask" = some 0 := by decide +kernel
  simp only [decide_eq_true_eq, InRegion, hasCell_iff h0] at h
  revert r
  decide +kernel

end Metcalcpy.Props
