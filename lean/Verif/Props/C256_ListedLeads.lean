/-
C256  A point for a list of values of the independent variable ("12;24") has the score of all lines of the listed values.
-/
import Verif.Model.AggLists
import Verif.Props.C123_LeadAggregation
import Verif.Props.C243_AggEnsemble
import Verif.Props.C102_DerivedPoints

namespace Metcalcpy.Props
open Metcalcpy Spec

/-! ### The rows of a group -/

theorem groups_perm {α κ : Type} [DecidableEq α] [DecidableEq κ] (key : α → κ) (rows : List α) (keys : List κ)
    (hn : keys.Nodup) (hc : ∀ r ∈ rows, key r ∈ keys) :
    (keys.flatMap fun k => rows.filter fun r => decide (key r = k)).Perm rows := by
  rw [List.perm_iff_count]
  intro r
  rw [List.count_flatMap]
  have key' : ∀ l : List κ, l.Nodup → (l.map (List.count r ∘ fun k => rows.filter fun r => decide (key r = k))).sum =
      if key r ∈ l then rows.count r else 0 := by
    intro l
    induction l with
    | nil => intro _; simp
    | cons i l ih =>
      intro hl
      rw [List.nodup_cons] at hl
      rw [List.map_cons, List.sum_cons, ih hl.2]
      simp only [Function.comp]
      by_cases hi : key r = i
      · subst hi
        rw [List.count_filter (by simp), if_neg hl.1, if_pos (by simp)]
        simp
      · rw [List.count_eq_zero.mpr (by simp [hi])]
        simp [hi]
  rw [key' keys hn]
  split
  · rfl
  · next h =>
    rw [eq_comm, List.count_eq_zero]
    exact fun hr => h (hc r hr)

theorem rowCells_table (cols : List String) (rows : List (List Val)) :
    ({ cols := cols, rows := rows.map rowCells } : Table) = numericTable cols rows := by
  unfold numericTable
  congr 1

/-- Every row has a positive total and numbers in the partial-sum fields. -/
structure MeanLines (lt : String) (f : Frame) (n : List Val → ℚ) (x : String → List Val → ℚ) : Prop where
  pos : ∀ r ∈ f.rows, 0 < n r
  total : ∀ r ∈ f.rows, HasNumber f r "total" (n r)
  field : ∀ c ∈ partialSumFields lt, ∀ r ∈ f.rows, HasNumber f r c (x c r)

/-- The total-weighted mean over some rows. -/
def rowsMean (n x : List Val → ℚ) (g : List (List Val)) : ℚ := (g.map (fun r => n r * x r)).sum / (g.map n).sum

theorem group_sums {lt : String} (h : SameNames lt) {f : Frame} {n : List Val → ℚ} {x : String → List Val → ℚ}
    (L : MeanLines lt f n x) {g : List (List Val)} (hne : g ≠ []) (hsub : ∀ r ∈ g, r ∈ f.rows) :
    ∃ sums, groupSums lt f.cols g = .ok sums ∧ sums.lookup "total" = some (.num (g.map n).sum "") ∧
      (∀ c ∈ partialSumFields lt, sums.lookup c = some (.num (rowsMean n (x c) g) "")) ∧
      ∀ c, c ≠ "total" → c ∉ partialSumFields lt → sums.lookup c = none := by
  have hpos : (g.map n).sum ≠ 0 := by
    apply ne_of_gt
    apply List.sum_pos
    · intro a ha
      obtain ⟨r, hr, rfl⟩ := List.mem_map.mp ha
      exact L.pos r (hsub r hr)
    · simpa using hne
  have G : Group lt { cols := f.cols, rows := g.map rowCells } (g.map n) (fun c => g.map (fun r => some (x c r))) := by
    rw [rowCells_table]
    refine ⟨by simpa [numericTable] using hne, ?_, hpos, ?_⟩
    · exact completeColumn_numeric hne (fun r hr => L.total r (hsub r hr))
    · intro c hc
      have := completeColumn_numeric (f := f) (c := c) (g := x c) hne (fun r hr => L.field c hc r (hsub r hr))
      unfold CompleteColumn at this
      rw [List.map_map] at this
      exact this
  obtain ⟨sums, h1, h2, h3⟩ := C85_group_means lt h f.cols g (g.map n) _ G
  refine ⟨sums, h1, h2, fun c hc => ?_, fun c hc1 hc2 => ?_⟩
  · rw [h3 c hc]
    congr 2
    unfold weightedMean rowsMean
    congr 1
    rw [List.zipWith_map_left, List.zipWith_map_right, List.zipWith_self]
    simp
  · unfold groupSums seriesSums at h1
    rw [C18_weighted_means_partial lt h _ _ _ G] at h1
    simp only [bind, Except.bind, pure, Except.pure, List.headD_cons, Except.ok.injEq] at h1
    rw [← h1, List.lookup_eq_none_iff]
    intro q hq
    have := (List.of_mem_zip hq).1
    simp only [List.mem_cons] at this
    rcases this with e | e
    · simpa [e] using hc1
    · simp only [bne_iff_ne, ne_eq]
      rintro rfl
      exact hc2 e

/-- `out` is `d` with its rows put together in groups: every row of `out` stands for the group of rows of `d`, with the sum of
the totals and the total-weighted means. -/
structure PooledFrame (lt : String) (d out : IFrame) (n : List Val → ℚ) (x : String → List Val → ℚ)
    (group : List Val → List (List Val)) : Prop where
  cols : out.cols = d.cols
  perm : (out.frame.rows.flatMap group).Perm d.frame.rows
  ne : ∀ r ∈ out.frame.rows, group r ≠ []
  total : ∀ r ∈ out.frame.rows, HasNumber out.frame r "total" ((group r).map n).sum
  field : ∀ c ∈ partialSumFields lt, ∀ r ∈ out.frame.rows, HasNumber out.frame r c (rowsMean n (x c) (group r))

theorem hasNumber_mem {f : Frame} {r : List Val} {c : String} {q : ℚ} (h : HasNumber f r c q) : c ∈ f.cols := by
  obtain ⟨t, i, h1, h2⟩ := h
  exact List.mem_of_getElem? h1

theorem pooled_number {f g : Frame} {var name : String} {sums : List (String × Val)} {first new : List Val} (hg : g.cols = f.cols)
    (P : IsPooledRow f var name sums first new) {c : String} {q : ℚ} (hc : c ∈ f.cols) (hv : c ≠ var)
    (hs : sums.lookup c = some (.num q "")) : HasNumber g new c q := by
  have := (P.2.2 c hc hv (.num q "")).mpr (Or.inl hs)
  unfold HasCell at this
  exact ⟨"", by unfold HasCell; rw [hg]; exact this⟩

open Classical in
/-- Pooling the rows of the listed leads per valid time. -/
theorem pool_leads {lt : String} (h : SameNames lt) (value : String) (series : List (String × List String)) (d : IFrame)
    (I : LeadInput d value) (hser : OnlyAggregated series "fcst_lead" value) {n : List Val → ℚ}
    {x : String → List Val → ℚ} (L : MeanLines lt d.frame n x) (hall : ∀ r ∈ d.frame.rows, InLeads d.frame value r) :
    ∃ out group, aggregateFieldValues lt series d = .ok out ∧ PooledFrame lt d out n x group ∧
      ∃ valids, ListsValues d.frame "fcst_valid_beg" valids ∧ out.rows.length = valids.length := by
  have hgroup : ∀ valid, (∃ r ∈ d.frame.rows, HasCell d.frame r "fcst_valid_beg" valid) →
      leadGroup d.frame value valid ≠ [] := by
    rintro valid ⟨r, hr, hc⟩ e
    have : r ∈ leadGroup d.frame value valid := List.mem_filter.mpr ⟨hr, by simpa using ⟨hc, hall r hr⟩⟩
    rw [e] at this
    simp at this
  have hsub : ∀ valid, ∀ r ∈ leadGroup d.frame value valid, r ∈ d.frame.rows := fun valid r hr =>
    (List.mem_filter.mp hr).1
  have hsums : ∀ valid, ∃ sums, (∃ r ∈ d.frame.rows, HasCell d.frame r "fcst_valid_beg" valid) →
      groupSums lt d.cols (leadGroup d.frame value valid) = .ok sums ∧
      sums.lookup "total" = some (.num ((leadGroup d.frame value valid).map n).sum "") ∧
      (∀ c ∈ partialSumFields lt, sums.lookup c = some (.num (rowsMean n (x c) (leadGroup d.frame value valid)) "")) ∧
      ∀ c, c ≠ "total" → c ∉ partialSumFields lt → sums.lookup c = none := by
    intro valid
    by_cases hv : ∃ r ∈ d.frame.rows, HasCell d.frame r "fcst_valid_beg" valid
    · obtain ⟨sums, hs⟩ := group_sums h L (hgroup valid hv) (hsub valid)
      exact ⟨sums, fun _ => hs⟩
    · exact ⟨[], fun hv' => absurd hv' hv⟩
  choose sums hsums using hsums
  obtain ⟨out, valids, pooled, name, h1, h2, h3, -, h5, h6⟩ := C123_one_row_per_valid_time_partial lt value series d I hser
    sums (fun valid hv => ⟨hgroup valid hv, (hsums valid hv).1⟩)
  have hfil : d.frame.rows.filter (fun r => decide (¬ InLeads d.frame value r)) = [] := by
    rw [List.filter_eq_nil_iff]
    intro r hr
    simpa using hall r hr
  rw [hfil, List.nil_append] at h5
  obtain ⟨v, hv⟩ := Frame.idx?_of_mem (f := d.frame) I.valid
  have hvl : "fcst_valid_beg" ≠ "total" ∧ "fcst_valid_beg" ∉ partialSumFields lt ∧ "fcst_lead" ≠ "total" ∧
      "fcst_lead" ∉ partialSumFields lt := by
    rcases h with rfl | rfl | rfl | rfl <;> decide
  have hcell : ∀ valid ∈ valids, cellAt (pooled valid) v = valid := by
    intro valid hvm
    obtain ⟨first, rest, e, P⟩ := h6 valid hvm
    have hex := (h3.2 valid).mp hvm
    have hf : HasCell d.frame first "fcst_valid_beg" valid := by
      have : first ∈ leadGroup d.frame value valid := by rw [e]; simp
      have := (List.mem_filter.mp this).2
      simp only [decide_eq_true_eq] at this
      exact this.1
    have := (P.2.2 "fcst_valid_beg" I.valid (by decide) valid).mpr
      (Or.inr ⟨(hsums valid hex).2.2.2 _ hvl.1 hvl.2.1, hf⟩)
    exact hasCell_unique hv this
  refine ⟨out, fun r => leadGroup d.frame value (cellAt r v), h1, ⟨h2, ?_, ?_, ?_, ?_⟩, valids, h3, ?_⟩
  · rw [h5, List.flatMap_map]
    have : (valids.flatMap fun k => leadGroup d.frame value (cellAt (pooled k) v)) =
        valids.flatMap fun k => d.frame.rows.filter fun r => decide (cellAt r v = k) := by
      apply List.flatMap_congr
      intro k hk
      rw [hcell k hk]
      unfold leadGroup
      apply List.filter_congr
      intro r hr
      rw [Bool.eq_iff_iff, decide_eq_true_iff, decide_eq_true_iff, hasCell_iff_cellAt hv (I.wf r hr)]
      exact ⟨fun h => h.1, fun h => ⟨h, hall r hr⟩⟩
    rw [this]
    apply groups_perm _ _ _ h3.1
    intro r hr
    exact (h3.2 _).mpr ⟨r, hr, hasCell_cellAt hv (I.wf r hr)⟩
  all_goals try
    intro r hr
    rw [h5] at hr
    obtain ⟨valid, hvm, rfl⟩ := List.mem_map.mp hr
    have hex := (h3.2 valid).mp hvm
    obtain ⟨first, rest, e, P⟩ := h6 valid hvm
    simp only [hcell valid hvm]
  · exact hgroup valid hex
  · obtain ⟨r₀, hr₀, hr₀'⟩ := hex
    exact pooled_number h2 P (hasNumber_mem (L.total r₀ hr₀)) hvl.2.2.1.symm (hsums valid ⟨r₀, hr₀, hr₀'⟩).2.1
  · intro c hc r hr
    rw [h5] at hr
    obtain ⟨valid, hvm, rfl⟩ := List.mem_map.mp hr
    have hex := (h3.2 valid).mp hvm
    obtain ⟨first, rest, e, P⟩ := h6 valid hvm
    simp only [hcell valid hvm]
    obtain ⟨r₀, hr₀, hr₀'⟩ := hex
    exact pooled_number h2 P (hasNumber_mem (L.field c hc r₀ hr₀))
      (fun e => hvl.2.2.2 (e ▸ hc)) ((hsums valid ⟨r₀, hr₀, hr₀'⟩).2.2.1 c hc)
  · have := congrArg List.length h5
    simpa [IFrame.frame] using this

open Classical in
/-- Pooling the rows of the listed values of another variable per valid time and lead. -/
theorem pool_regions {lt : String} (h : SameNames lt) (var value : String) (series : List (String × List String))
    (d : IFrame) (I : RegionInput d var value) (hser : OnlyAggregated series var value) (hvar : var ≠ "fcst_valid_beg")
    {n : List Val → ℚ} {x : String → List Val → ℚ} (L : MeanLines lt d.frame n x)
    (hall : ∀ r ∈ d.frame.rows, InRegion d.frame var value r)
    (hcomplete : ∀ valid lead, (∃ r ∈ d.frame.rows, HasCell d.frame r "fcst_valid_beg" valid) →
      (∃ r ∈ d.frame.rows, HasCell d.frame r "fcst_lead" lead) → ∃ r ∈ d.frame.rows, AtTime d.frame valid lead r) :
    ∃ out group, aggregateFieldValues lt series d = .ok out ∧ PooledFrame lt d out n x group ∧
      ∃ valids leads, ListsValues d.frame "fcst_valid_beg" valids ∧ ListsValues d.frame "fcst_lead" leads ∧
        out.rows.length = valids.length * leads.length := by
  let Has (valid lead : Val) : Prop := (∃ r ∈ d.frame.rows, HasCell d.frame r "fcst_valid_beg" valid) ∧
    ∃ r ∈ d.frame.rows, HasCell d.frame r "fcst_lead" lead
  have hgroup : ∀ valid lead, Has valid lead → regionGroup d.frame var value valid lead ≠ [] := by
    rintro valid lead ⟨ha, hb⟩ e
    obtain ⟨r, hr, hc⟩ := hcomplete valid lead ha hb
    have : r ∈ regionGroup d.frame var value valid lead := List.mem_filter.mpr ⟨hr, by simpa using ⟨hc, hall r hr⟩⟩
    rw [e] at this
    simp at this
  have hsub : ∀ valid lead, ∀ r ∈ regionGroup d.frame var value valid lead, r ∈ d.frame.rows := fun _ _ r hr =>
    (List.mem_filter.mp hr).1
  have hsums : ∀ valid lead, ∃ sums, Has valid lead →
      groupSums lt d.cols (regionGroup d.frame var value valid lead) = .ok sums ∧
      sums.lookup "total" = some (.num ((regionGroup d.frame var value valid lead).map n).sum "") ∧
      (∀ c ∈ partialSumFields lt,
        sums.lookup c = some (.num (rowsMean n (x c) (regionGroup d.frame var value valid lead)) "")) ∧
      ∀ c, c ≠ "total" → c ∉ partialSumFields lt → sums.lookup c = none := by
    intro valid lead
    by_cases hv : Has valid lead
    · obtain ⟨sums, hs⟩ := group_sums h L (hgroup valid lead hv) (hsub valid lead)
      exact ⟨sums, fun _ => hs⟩
    · exact ⟨[], fun hv' => absurd hv' hv⟩
  choose sums hsums using hsums
  obtain ⟨out, valids, leads, pooled, h1, h2, h3, h4, h5, h6⟩ := C85_one_row_per_time_partial lt var value series d I hser
    sums (fun valid lead ha hb => ⟨hgroup valid lead ⟨ha, hb⟩, (hsums valid lead ⟨ha, hb⟩).1⟩)
  have hfil : d.frame.rows.filter (fun r => decide (¬ InRegion d.frame var value r)) = [] := by
    rw [List.filter_eq_nil_iff]
    intro r hr
    simpa using hall r hr
  rw [hfil, List.nil_append] at h5
  obtain ⟨v, hv⟩ := Frame.idx?_of_mem (f := d.frame) I.valid
  obtain ⟨l, hl⟩ := Frame.idx?_of_mem (f := d.frame) I.lead
  have hvl : "fcst_valid_beg" ≠ "total" ∧ "fcst_valid_beg" ∉ partialSumFields lt ∧ "fcst_lead" ≠ "total" ∧
      "fcst_lead" ∉ partialSumFields lt := by
    rcases h with rfl | rfl | rfl | rfl <;> decide
  have hne : ∀ r ∈ d.frame.rows, ∀ c q, HasNumber d.frame r c q → c ≠ var := by
    rintro r hr c q ⟨t, hc⟩ rfl
    obtain ⟨s, -, hs⟩ := hall r hr
    cases hasCell_eq I.var_mem hc hs
  have hmem : ∀ k ∈ valids ×ˢ leads, Has k.1 k.2 ∧ k.1 ∈ valids ∧ k.2 ∈ leads := by
    intro k hk
    have := List.mem_product.mp (show (k.1, k.2) ∈ valids ×ˢ leads from hk)
    exact ⟨⟨(h3.2 _).mp this.1, (h4.2 _).mp this.2⟩, this⟩
  have hcell : ∀ k ∈ valids ×ˢ leads, (cellAt (pooled k.1 k.2) v, cellAt (pooled k.1 k.2) l) = k := by
    intro k hk
    obtain ⟨hex, m1, m2⟩ := hmem k hk
    obtain ⟨first, rest, e, P⟩ := h6 k.1 m1 k.2 m2
    have hf : AtTime d.frame k.1 k.2 first := by
      have : first ∈ regionGroup d.frame var value k.1 k.2 := by rw [e]; simp
      have := (List.mem_filter.mp this).2
      simp only [decide_eq_true_eq] at this
      exact this.1
    have a1 := (P.2.2 "fcst_valid_beg" I.valid hvar.symm k.1).mpr
      (Or.inr ⟨(hsums _ _ hex).2.2.2 _ hvl.1 hvl.2.1, hf.1⟩)
    have a2 := (P.2.2 "fcst_lead" I.lead I.var_ne.symm k.2).mpr
      (Or.inr ⟨(hsums _ _ hex).2.2.2 _ hvl.2.2.1 hvl.2.2.2, hf.2⟩)
    exact Prod.ext (hasCell_unique hv a1) (hasCell_unique hl a2)
  have hcell1 : ∀ k ∈ valids ×ˢ leads, cellAt (pooled k.1 k.2) v = k.1 := fun k hk => congrArg Prod.fst (hcell k hk)
  have hcell2 : ∀ k ∈ valids ×ˢ leads, cellAt (pooled k.1 k.2) l = k.2 := fun k hk => congrArg Prod.snd (hcell k hk)
  refine ⟨out, fun r => regionGroup d.frame var value (cellAt r v) (cellAt r l), h1, ⟨h2, ?_, ?_, ?_, ?_⟩, valids, leads,
    h3, h4, ?_⟩
  · rw [h5, List.flatMap_map]
    have : ((valids ×ˢ leads).flatMap fun k => regionGroup d.frame var value (cellAt (pooled k.1 k.2) v)
          (cellAt (pooled k.1 k.2) l)) =
        (valids ×ˢ leads).flatMap fun k => d.frame.rows.filter fun r => decide ((cellAt r v, cellAt r l) = k) := by
      apply List.flatMap_congr
      intro k hk
      rw [hcell1 k hk, hcell2 k hk]
      unfold regionGroup
      apply List.filter_congr
      intro r hr
      rw [Bool.eq_iff_iff, decide_eq_true_iff, decide_eq_true_iff, AtTime, hasCell_iff_cellAt hv (I.wf r hr),
        hasCell_iff_cellAt hl (I.wf r hr)]
      exact ⟨fun h => Prod.ext h.1.1 h.1.2, fun h => ⟨⟨congrArg Prod.fst h, congrArg Prod.snd h⟩, hall r hr⟩⟩
    rw [this]
    apply groups_perm _ _ _ (List.Nodup.product h3.1 h4.1)
    intro r hr
    exact List.mem_product.mpr ⟨(h3.2 _).mpr ⟨r, hr, hasCell_cellAt hv (I.wf r hr)⟩,
      (h4.2 _).mpr ⟨r, hr, hasCell_cellAt hl (I.wf r hr)⟩⟩
  · intro r hr
    rw [h5] at hr
    obtain ⟨k, hk, rfl⟩ := List.mem_map.mp hr
    simp only [hcell1 k hk, hcell2 k hk]
    exact hgroup _ _ (hmem k hk).1
  · intro r hr
    rw [h5] at hr
    obtain ⟨k, hk, rfl⟩ := List.mem_map.mp hr
    obtain ⟨hex, m1, m2⟩ := hmem k hk
    obtain ⟨first, rest, e, P⟩ := h6 k.1 m1 k.2 m2
    simp only [hcell1 k hk, hcell2 k hk]
    obtain ⟨r₀, hr₀, -⟩ := hex.1
    exact pooled_number h2 P (hasNumber_mem (L.total r₀ hr₀)) (hne r₀ hr₀ _ _ (L.total r₀ hr₀)) (hsums _ _ hex).2.1
  · intro c hc r hr
    rw [h5] at hr
    obtain ⟨k, hk, rfl⟩ := List.mem_map.mp hr
    obtain ⟨hex, m1, m2⟩ := hmem k hk
    obtain ⟨first, rest, e, P⟩ := h6 k.1 m1 k.2 m2
    simp only [hcell1 k hk, hcell2 k hk]
    obtain ⟨r₀, hr₀, -⟩ := hex.1
    exact pooled_number h2 P (hasNumber_mem (L.field c hc r₀ hr₀)) (hne r₀ hr₀ _ _ (L.field c hc r₀ hr₀))
      ((hsums _ _ hex).2.2.1 c hc)
  · have := congrArg List.length h5
    simpa [IFrame.frame, List.length_product] using this

/-! ### The loop over the points -/

theorem dictSet_twice {β : Type} (d : List (String × β)) (k : String) (a b : β) :
    dictSet (dictSet d k a) k b = dictSet d k b := by
  unfold dictSet
  by_cases h : d.any (fun p => p.1 == k) = true
  · rw [if_pos h, if_pos h, if_pos, List.map_map]
    · apply List.map_congr_left
      intro p _
      simp only [Function.comp]
      by_cases hp : (p.1 == k) = true
      · simp [hp]
      · simp [hp]
    · rw [List.any_eq_true] at h ⊢
      obtain ⟨p, hp, hk⟩ := h
      exact ⟨(k, a), List.mem_map.mpr ⟨p, hp, by simp [hk]⟩, by simp⟩
  · rw [if_neg h, if_neg h, if_pos (by simp), List.map_append]
    congr 1
    · conv_rhs => rw [← List.map_id d]
      apply List.map_congr_left
      intro p hp
      have : ¬ (p.1 == k) = true := fun hk => h (List.any_eq_true.mpr ⟨p, hp, hk⟩)
      simp [this]
    · simp

theorem dictSet_keys {β : Type} {d : List (String × β)} {k : String} {a : β} {P : String → Bool}
    (hd : d.any (fun p => P p.1) = false) (hk : P k = false) : (dictSet d k a).any (fun p => P p.1) = false := by
  rw [List.any_eq_false] at hd ⊢
  intro p hp
  unfold dictSet at hp
  split at hp
  · obtain ⟨q, hq, rfl⟩ := List.mem_map.mp hp
    split
    · simp [hk]
    · exact hd q hq
  · rcases List.mem_append.mp hp with h | h
    · exact hd p h
    · rw [List.mem_singleton] at h
      rw [h]
      simp [hk]

/-- The names of the series variables and of the independent variable do not contain ';'. -/
def PlainNames (c : AggConfig) : Prop := ∀ v ∈ c.indyVar :: c.series.map Prod.fst, ';' ∉ v.toList

/-- The rows of a point after pooling. -/
def PooledPoint (lt : String) (f : IFrame) (c : AggConfig) (p : List String) (rows : List (List Val)) : Prop :=
  ∃ d, pointFrame f ((c.fields.map Prod.fst).zip p) c.fcstVars.head? = .ok d ∧
    (((∀ v, pointIndy f c p = some v → hasSemi v = false) ∧ rows = d.frame.rows) ∨
     ∃ v g, pointIndy f c p = some v ∧ hasSemi v = true ∧
       aggregateFieldValues lt (dictSet c.series c.indyVar [v]) d = .ok g ∧ rows = g.frame.rows)

/-- The output row of a point. -/
def ListOut (lt : String) (statOf : String → List (List Val) → Except PyErr PyNum) (f : IFrame) (c : AggConfig)
    (p : List String) (o : AggOut) : Prop :=
  ∃ rows, PooledPoint lt f c p rows ∧ o.point = p ∧ o.fcstVar = c.fcstVars.head? ∧ o.nstats = rows.length ∧
    ((rows = [] ∧ o.value = .none) ∨ (rows ≠ [] ∧ ∃ old, statOf (pointStat c.stats p old) rows = .ok o.value))

/-- The dictionary of the series values, possibly with the independent variable added. -/
def SeriesState (c : AggConfig) (s : List (String × List String)) : Prop :=
  s.any (fun p => hasSemi p.1) = false ∧ ∀ v, dictSet s c.indyVar [v] = dictSet c.series c.indyVar [v]

theorem listStep_plain {lt : String} {statOf : String → List (List Val) → Except PyErr PyNum}
    {etb : List PyNum → List PyNum → PyNum} {f : IFrame} {c : AggConfig} {curves : List (String × DerivedCurve)}
    (hnames : PlainNames c) {st st' : AggState × List (String × List String)} {p : List String}
    (hp : isDerivedPoint (some p) = false) (hst : SeriesState c st.2)
    (h : listStep lt statOf etb f c curves st p = .ok st') :
    SeriesState c st'.2 ∧ ∃ o, ListOut lt statOf f c p o ∧ st'.1.out = st.1.out ++ [o] := by
  unfold listStep at h
  simp only [hp, Bool.false_eq_true, if_false, bind, Except.bind] at h
  cases hd : pointFrame f ((c.fields.map Prod.fst).zip p) c.fcstVars.head? with
  | error e => rw [hd] at h; simp at h
  | ok d =>
    rw [hd] at h
    simp only at h
    have hpool : ∀ g, poolPoint lt c.indyVar st.2 (pointIndy f c p) d = .ok g → SeriesState c g.1 ∧
        PooledPoint lt f c p g.2.frame.rows := by
      intro g hg
      unfold poolPoint at hg
      rw [hst.1] at hg
      simp only [Bool.false_eq_true, if_false] at hg
      cases hi : pointIndy f c p with
      | none =>
        rw [hi] at hg
        simp only [Except.ok.injEq] at hg
        subst hg
        exact ⟨hst, d, hd, Or.inl ⟨by simp [hi], rfl⟩⟩
      | some v =>
        rw [hi] at hg
        simp only at hg
        by_cases hv : hasSemi v = true
        · rw [if_pos hv, hst.2] at hg
          cases ha : aggregateFieldValues lt (dictSet c.series c.indyVar [v]) d with
          | error e => rw [ha] at hg; simp [bind, Except.bind] at hg
          | ok g' =>
            rw [ha] at hg
            simp only [bind, Except.bind, Except.ok.injEq] at hg
            subst hg
            refine ⟨⟨?_, fun w => dictSet_twice _ _ _ _⟩, d, hd, Or.inr ⟨v, g', hi, hv, ha, rfl⟩⟩
            apply dictSet_keys (P := hasSemi)
            · rw [List.any_eq_false]
              intro q hq
              have := hnames q.1 (List.mem_cons_of_mem _ (List.mem_map_of_mem hq))
              simpa [hasSemi] using this
            · simpa [hasSemi] using hnames c.indyVar (by simp)
        · rw [if_neg hv] at hg
          simp only [Except.ok.injEq] at hg
          subst hg
          refine ⟨hst, d, hd, Or.inl ⟨?_, rfl⟩⟩
          intro w hw
          rw [hi] at hw
          simp only [Option.some.injEq] at hw
          subst hw
          simpa using hv
    cases hg : poolPoint lt c.indyVar st.2 (pointIndy f c p) d with
    | error e => rw [hg] at h; simp at h
    | ok g =>
      rw [hg] at h
      simp only at h
      obtain ⟨k1, k2⟩ := hpool g hg
      by_cases he : g.2.frame.rows = []
      · simp only [he, List.isEmpty_nil, if_true, Except.ok.injEq] at h
        subst h
        exact ⟨k1, _, ⟨_, k2, rfl, rfl, by simp [he], Or.inl ⟨he, rfl⟩⟩, rfl⟩
      · have hb : g.2.frame.rows.isEmpty = false := by simpa using he
        cases hv : statOf (pointStat c.stats p st.1.stat) g.2.frame.rows with
        | error e => simp [hb, hv] at h
        | ok v =>
          simp only [hb, hv, Bool.false_eq_true, if_false, Except.ok.injEq] at h
          subst h
          exact ⟨k1, _, ⟨_, k2, rfl, rfl, rfl, Or.inr ⟨he, _, hv⟩⟩, rfl⟩

theorem listLoop_plain {lt : String} {statOf : String → List (List Val) → Except PyErr PyNum}
    {etb : List PyNum → List PyNum → PyNum} {f : IFrame} {c : AggConfig} {curves : List (String × DerivedCurve)}
    (hnames : PlainNames c) (pts : List (List String)) (hp : ∀ p ∈ pts, isDerivedPoint (some p) = false)
    {st st' : AggState × List (String × List String)} (hst : SeriesState c st.2)
    (h : pts.foldlM (listStep lt statOf etb f c curves) st = .ok st') :
    ∃ outs, st'.1.out = st.1.out ++ outs ∧ List.Forall₂ (ListOut lt statOf f c) pts outs := by
  induction pts generalizing st with
  | nil =>
    simp [pure, Except.pure] at h
    exact ⟨[], by simp [h], .nil⟩
  | cons p pts ih =>
    obtain ⟨s₁, h₁, h₂⟩ := foldlM_except_cons _ _ _ _ h
    obtain ⟨k, o, ho, e⟩ := listStep_plain hnames (hp p (by simp)) hst h₁
    obtain ⟨outs, e', hf⟩ := ih (fun q hq => hp q (by simp [hq])) k h₂
    exact ⟨o :: outs, by rw [e', e, List.append_assoc]; rfl, .cons ho hf⟩

theorem listLoop_extends {lt : String} {statOf : String → List (List Val) → Except PyErr PyNum}
    {etb : List PyNum → List PyNum → PyNum} {f : IFrame} {c : AggConfig} {curves : List (String × DerivedCurve)}
    (pts : List (List String)) {st st' : AggState × List (String × List String)}
    (h : pts.foldlM (listStep lt statOf etb f c curves) st = .ok st') : ∃ outs, st'.1.out = st.1.out ++ outs := by
  induction pts generalizing st with
  | nil =>
    simp [pure, Except.pure] at h
    exact ⟨[], by simp [h]⟩
  | cons p pts ih =>
    obtain ⟨s₁, h₁, h₂⟩ := foldlM_except_cons _ _ _ _ h
    obtain ⟨outs, e⟩ := ih h₂
    have : ∃ o, s₁.1.out = st.1.out ++ o := by
      unfold listStep at h₁
      simp only [bind, Except.bind] at h₁
      repeat' split at h₁
      all_goals first
        | (simp only [Except.ok.injEq] at h₁; subst h₁; exact ⟨_, rfl⟩)
        | simp at h₁
    obtain ⟨o, ho⟩ := this
    exact ⟨o ++ outs, by rw [e, ho, List.append_assoc]⟩

theorem listAxis_split {lt : String} {statOf : String → List (List Val) → Except PyErr PyNum}
    {etb : List PyNum → List PyNum → PyNum} {f : IFrame} {c : AggConfig} {out : List AggOut} (hnames : PlainNames c)
    (hne : f.rows ≠ [] ∧ f.cols ≠ []) (hd : ∀ q ∈ c.fields, ∀ v ∈ q.2, isDerivedPoint (some [v]) = false)
    (h : listAxis lt statOf etb f c = .ok out) :
    ∃ plain derived, out = plain ++ derived ∧ List.Forall₂ (ListOut lt statOf f c) c.plainPoints plain := by
  unfold listAxis at h
  have he : f.frame.isEmpty = false := by
    obtain ⟨h1, h2⟩ := hne
    unfold Frame.isEmpty IFrame.frame
    cases hc : f.cols <;> cases hr : f.rows <;> simp_all
  rw [he] at h
  simp only [Bool.false_eq_true, if_false] at h
  cases hm : c.derived.mapM (derivedEntry c) with
  | error e => rw [hm] at h; simp [bind, Except.bind] at h
  | ok entries =>
    rw [hm] at h
    simp only [bind, Except.bind] at h
    split at h
    · simp at h
    · next st hst =>
      obtain ⟨s₁, h₁, h₂⟩ := foldlM_except_append _ _ _ _ hst
      have hs0 : SeriesState c c.series := by
        refine ⟨?_, fun _ => rfl⟩
        rw [List.any_eq_false]
        intro q hq
        have := hnames q.1 (List.mem_cons_of_mem _ (List.mem_map_of_mem hq))
        simpa [hasSemi] using this
      obtain ⟨plain, e₁, hp⟩ := listLoop_plain hnames _ (plain_not_derived hd) hs0 h₁
      obtain ⟨der, e₂⟩ := listLoop_extends _ h₂
      refine ⟨plain, der, ?_, hp⟩
      simp only [Except.ok.injEq] at h
      rw [← h, e₂, e₁]; simp

/-! ### The request -/

open Classical in
/-- The input rows of a point. -/
noncomputable def rowsOfPoint (f : Frame) (c : AggConfig) (p : List String) : List (List Val) :=
  f.rows.filter (fun r => decide (RowOf f (((requestedValues c).map Prod.fst).zip p) c.fcstVars.head? r))

/-- A request on a rectangular table as read from a file (the index labels increase), with the time columns and the
independent variable; only the values of the independent variable are lists (with ';'). -/
structure ListRequest (f : IFrame) (c : AggConfig) : Prop where
  wf : FrameWF f.frame
  rows : f.rows ≠ []
  labels : (f.rows.map Prod.fst).Pairwise (· < ·)
  valid : "fcst_valid_beg" ∈ f.cols
  lead : "fcst_lead" ∈ f.cols
  indy : c.indyVar ∈ f.cols
  times : ∀ r ∈ f.frame.rows, ¬ HasCell f.frame r "fcst_valid_beg" .null ∧ ¬ HasCell f.frame r "fcst_lead" .null
  names : PlainNames c
  fields : FieldsDistinct c
  values : ∀ q ∈ requestedValues c, ∀ v ∈ q.2, (∃ vals, StandsFor v vals) ∧ isDerivedPoint (some [v]) = false
  series : ∀ q ∈ c.series, ∀ v ∈ q.2, ';' ∉ v.toList
  lists : ∀ v ∈ c.indyVals, ';' ∈ v.toList → ':' ∉ v.toList

theorem splitAt1_semi (cs : List Char) : splitAt1 ';' cs = splitSemi cs := by
  induction cs with
  | nil => rfl
  | cons c cs ih => rw [splitAt1, splitSemi, ih]; rfl

theorem cellAmong_list {cell : Val} {v : String} (h : CellAmong cell v) (h1 : ';' ∈ v.toList) (h2 : ':' ∉ v.toList) :
    ∃ w ∈ semiParts v, CellIs cell w := by
  obtain ⟨vals, hs, w, hw, hc⟩ := h
  have e := pointParts_eq hs
  unfold pointParts at e
  rw [if_neg (by simpa using h2), if_pos (by simpa using h1), splitAt1_semi] at e
  exact ⟨w, by unfold semiParts; rw [e]; exact hw, hc⟩

theorem zip_lookup {keys : List String} {p : List String} {k v : String} (h : (keys.zip p).lookup k = some v) :
    (k, v) ∈ keys.zip p := by
  obtain ⟨l₁, l₂, e, -⟩ := List.lookup_eq_some_iff.mp h
  rw [e]; simp

theorem pointIndy_some {f : IFrame} {c : AggConfig} (hdist : FieldsDistinct c) {p : List String}
    (hp : List.Forall₂ (fun x q => x ∈ q.2) p (requestedValues c)) {v : String} (h : pointIndy f c p = some v) :
    v ∈ c.indyVals ∧ (c.indyVar, v) ∈ ((requestedValues c).map Prod.fst).zip p := by
  unfold pointIndy at h
  split at h
  · rw [fields_eq hdist] at h
    have hz := zip_lookup h
    refine ⟨?_, hz⟩
    have key : ∀ (l : List (String × List String)) (p : List String), List.Forall₂ (fun x q => x ∈ q.2) p l →
        (c.indyVar, v) ∈ (l.map Prod.fst).zip p → ∃ q ∈ l, q.1 = c.indyVar ∧ v ∈ q.2 := by
      intro l p hf
      induction hf with
      | nil => simp
      | @cons x q p l hx _ ih =>
        intro hm
        simp only [List.map_cons, List.zip_cons_cons, List.mem_cons, Prod.mk.injEq] at hm
        rcases hm with ⟨h1, h2⟩ | hm
        · exact ⟨q, by simp, h1.symm, h2 ▸ hx⟩
        · obtain ⟨q', hq', h'⟩ := ih hm
          exact ⟨q', by simp [hq'], h'⟩
    obtain ⟨q, hq, h1, h2⟩ := key _ _ hp hz
    unfold requestedValues at hq
    simp only [List.mem_append, List.mem_singleton] at hq
    rcases hq with (hq | hq) | hq
    · exact absurd (h1 ▸ List.mem_map_of_mem hq) hdist.1
    · split at hq
      · simp at hq
      · simp only [List.mem_singleton] at hq
        rw [hq] at h2
        exact h2
    · exact absurd (by rw [← h1, hq]) hdist.2.2
  · simp at h

open Classical in
/-- The rows of a point, with their labels. -/
theorem pointFrame_rows {f : IFrame} {c : AggConfig} (R : ListRequest f c) {p : List String}
    (hp : List.Forall₂ (fun x q => x ∈ q.2) p (requestedValues c)) {d : IFrame}
    (h : pointFrame f ((c.fields.map Prod.fst).zip p) c.fcstVars.head? = .ok d) :
    d.cols = f.cols ∧ d.frame.rows = rowsOfPoint f.frame c p ∧ (d.rows.map Prod.fst).Pairwise (· < ·) := by
  have hreq : ∀ q ∈ ((requestedValues c).map Prod.fst).zip p, ∃ vals, StandsFor q.2 vals := by
    intro q hq
    have hfo : List.Forall₂ (fun x l => x ∈ l) p ((requestedValues c).map Prod.snd) :=
      List.forall₂_map_right_iff.mpr hp
    obtain ⟨l, hl, hx⟩ := forall₂_mem_any hfo (List.of_mem_zip hq).2
    obtain ⟨w, hw, rfl⟩ := List.mem_map.mp hl
    exact (R.values w hw _ hx).1
  unfold pointFrame at h
  rw [fields_eq R.fields] at h
  split at h
  · simp at h
  · simp only [Except.ok.injEq] at h
    subst h
    refine ⟨rfl, ?_, ?_⟩
    · unfold rowsOfPoint IFrame.frame
      simp only
      rw [List.filter_map]
      congr 1
      apply List.filter_congr
      intro r hr
      simp only [Function.comp]
      rw [Bool.eq_iff_iff, decide_eq_true_iff]
      exact pointFilters_iff R.wf hreq (List.mem_map_of_mem hr)
    · exact R.labels.sublist (List.Sublist.map _ List.filter_sublist)

theorem only_list {c : AggConfig} (hdist : FieldsDistinct c) (hs : ∀ q ∈ c.series, ∀ v ∈ q.2, ';' ∉ v.toList) {v : String}
    (hv : hasSemi v = true) : OnlyAggregated (dictSet c.series c.indyVar [v]) c.indyVar v := by
  rw [dictSet_new _ _ _ hdist.1]
  refine ⟨hv, c.series, [], [], [], rfl, ?_, by simp⟩
  intro q hq x hx
  rw [List.append_nil] at hq
  simpa [hasSemi] using hs q hq x hx

theorem lineStat_cols {f g : Frame} (h : f.cols = g.cols) (l : LineType) (s : String) (rows : List (List Val)) :
    lineStat l f s rows = lineStat l g s rows := by
  obtain ⟨a, b⟩ := f
  obtain ⟨a', b'⟩ := g
  simp only at h
  subst h
  rfl

theorem PoolScore.perm {s : String} {a b : List Pair} {v : PyNum} (h : PoolScore s a v) (hp : a.Perm b) :
    PoolScore s b v := by
  have hme : meanError a = meanError b := perm_avg _ hp
  have hmse : meanSquaredError a = meanSquaredError b := perm_avg _ hp
  obtain ⟨h1, h2, h3, h4, h5, h6, h7, h8⟩ := h
  rw [perm_avg _ hp] at h1 h2 h3 h4 h5
  rw [hme] at h6 h8
  rw [hmse] at h7
  rw [perm_bcmse hp] at h8
  exact ⟨h1, h2, h3, h4, h5, h6, h7, h8⟩

/-! ### SL1L2 lines -/

/-- The fields of the SL1L2 line of some pairs. -/
def slField (c : String) (pool : List Pair) : ℚ :=
  if c = "fbar" then avg Prod.fst pool
  else if c = "obar" then avg Prod.snd pool
  else if c = "fobar" then avg (fun p => p.1 * p.2) pool
  else if c = "ffbar" then avg (fun p => p.1 * p.1) pool
  else avg (fun p => p.2 * p.2) pool

theorem sl_mean {f : Frame} {pairs : List Val → List Pair} (L : Sl1l2Lines f pairs) :
    MeanLines "sl1l2" f (fun r => (pairs r).length) (fun c r => slField c (pairs r)) := by
  refine ⟨fun r hr => ?_, L.total, ?_⟩
  · have := List.length_pos_iff.mpr (L.batch r hr)
    exact_mod_cast this
  · intro c hc r hr
    simp only [partialSumFields, List.mem_cons, List.not_mem_nil, or_false] at hc
    rcases hc with rfl | rfl | rfl | rfl | rfl
    · exact L.fbar r hr
    · exact L.obar r hr
    · exact L.fobar r hr
    · exact L.ffbar r hr
    · exact L.oobar r hr

theorem rowsMean_avg (pairs : List Val → List Pair) (w : Pair → ℚ) (g : List (List Val)) (hb : ∀ r ∈ g, pairs r ≠ []) :
    rowsMean (fun r => ((pairs r).length : ℚ)) (fun r => avg w (pairs r)) g = avg w (g.flatMap pairs) := by
  unfold rowsMean avg
  congr 1
  · rw [List.map_flatMap, List.flatMap_def, List.sum_flatten, List.map_map]
    congr 1
    apply List.map_congr_left
    intro r hr
    have : ((pairs r).length : ℚ) ≠ 0 := by
      have := List.length_pos_iff.mpr (hb r hr)
      exact_mod_cast this.ne'
    simp only [Function.comp]
    field_simp
  · rw [List.length_flatMap]
    induction g with
    | nil => simp
    | cons r g ih => simp [ih (fun r hr => hb r (by simp [hr]))]

/-- The pooled rows are the SL1L2 lines of the pairs of their groups. -/
theorem pooled_sl {d out : IFrame} {pairs : List Val → List Pair} {group : List Val → List (List Val)}
    (L : Sl1l2Lines d.frame pairs)
    (P : PooledFrame "sl1l2" d out (fun r => (pairs r).length) (fun c r => slField c (pairs r)) group) :
    Sl1l2Lines out.frame (fun r => (group r).flatMap pairs) ∧
      (out.frame.rows.flatMap (fun r => (group r).flatMap pairs)).Perm (d.frame.rows.flatMap pairs) := by
  have hsub : ∀ r ∈ out.frame.rows, ∀ r' ∈ group r, pairs r' ≠ [] := by
    intro r hr r' hr'
    exact L.batch r' (P.perm.mem_iff.mp (List.mem_flatMap.mpr ⟨r, hr, hr'⟩))
  have key : ∀ c ∈ partialSumFields "sl1l2", ∀ w : Pair → ℚ, (∀ l, slField c l = avg w l) →
      ∀ r ∈ out.frame.rows, HasNumber out.frame r c (avg w ((group r).flatMap pairs)) := by
    intro c hc w hw r hr
    have := P.field c hc r hr
    simp only [hw] at this
    rwa [rowsMean_avg pairs w _ (hsub r hr)] at this
  refine ⟨⟨?_, ?_, key "fbar" (by decide) _ (fun _ => rfl), key "obar" (by decide) _ (fun _ => rfl),
    key "fobar" (by decide) _ (fun _ => rfl), key "ffbar" (by decide) _ (fun _ => rfl),
    key "oobar" (by decide) _ (fun _ => rfl)⟩, ?_⟩
  · intro r hr
    obtain ⟨r', l, e⟩ := List.exists_cons_of_ne_nil (P.ne r hr)
    have := hsub r hr r' (by rw [e]; simp)
    rw [e, List.flatMap_cons]
    simp [this]
  · intro r hr
    have := P.total r hr
    have e : (((group r).flatMap pairs).length : ℚ) = ((group r).map (fun r => ((pairs r).length : ℚ))).sum := by
      rw [List.length_flatMap]
      induction group r with
      | nil => simp
      | cons a l ih => simp [ih]
    rw [e]
    exact this
  · have := P.perm.flatMap_right pairs
    rwa [List.flatMap_assoc] at this

theorem meanLines_sub {pairs : List Val → List Pair} {f g : Frame} (L : Sl1l2Lines f pairs) (hc : g.cols = f.cols)
    (hs : ∀ r ∈ g.rows, r ∈ f.rows) : Sl1l2Lines g pairs := by
  have key : ∀ c q r, HasNumber f r c q → HasNumber g r c q := by
    rintro c q r ⟨t, h⟩
    refine ⟨t, ?_⟩
    unfold HasCell at h ⊢
    rw [hc]
    exact h
  exact ⟨fun r hr => L.batch r (hs r hr), fun r hr => key _ _ r (L.total r (hs r hr)),
    fun r hr => key _ _ r (L.fbar r (hs r hr)), fun r hr => key _ _ r (L.obar r (hs r hr)),
    fun r hr => key _ _ r (L.fobar r (hs r hr)), fun r hr => key _ _ r (L.ffbar r (hs r hr)),
    fun r hr => key _ _ r (L.oobar r (hs r hr))⟩

theorem sortData_ok {f : Frame} (h1 : "fcst_valid_beg" ∈ f.cols) (h2 : "fcst_lead" ∈ f.cols) (rows : List (List Val)) :
    ∃ data, sortData f rows = .ok data := by
  obtain ⟨i, hi⟩ := Frame.idx?_of_mem h1
  obtain ⟨j, hj⟩ := Frame.idx?_of_mem h2
  unfold sortData Frame.col
  rw [sortTime, if_pos h1, hi, hj]
  exact ⟨_, rfl⟩

theorem last_stat {c : AggConfig} {p : List String} (hp : List.Forall₂ (fun x q => x ∈ q.2) p (requestedValues c)) :
    ∃ a s, p = a ++ [s] ∧ s ∈ c.stats := by
  unfold requestedValues at hp
  have h1 := List.forall₂_drop_append _ _ _ hp
  refine ⟨p.take (c.series ++ (if c.indyVals = [] then [] else [(c.indyVar, c.indyVals)])).length, ?_⟩
  generalize hb : p.drop (c.series ++ (if c.indyVals = [] then [] else [(c.indyVar, c.indyVals)])).length = b at h1
  cases h1 with
  | @cons s _ _ _ hs hnil =>
    cases hnil
    refine ⟨s, ?_, hs⟩
    rw [← hb, List.take_append_drop]

/-- The value of a point from the rows that replace its input rows. -/
theorem pooled_value {f : IFrame} {c : AggConfig} {pairs : List Val → List Pair} (hvalid : "fcst_valid_beg" ∈ f.cols)
    (hlead : "fcst_lead" ∈ f.cols) {d out : IFrame} (hd : d.cols = f.cols) {group : List Val → List (List Val)}
    (L : Sl1l2Lines d.frame pairs)
    (P : PooledFrame "sl1l2" d out (fun r => (pairs r).length) (fun c r => slField c (pairs r)) group) {s : String}
    {v : PyNum} (hne : out.frame.rows ≠ []) (h : lineStat .sl1l2 f.frame s out.frame.rows = .ok v) :
    PoolScore s (d.frame.rows.flatMap pairs) v := by
  obtain ⟨L', hperm⟩ := pooled_sl L P
  have hc : out.frame.cols = f.frame.cols := P.cols.trans hd
  rw [lineStat_cols hc.symm] at h
  obtain ⟨data, hs⟩ := sortData_ok (f := out.frame) (by rw [hc]; exact hvalid) (by rw [hc]; exact hlead) out.frame.rows
  exact (sl_value L' hs hne (fun r hr => hr) h).perm hperm

/-- C256, common part: if the rows of every listed value can be pooled, the scores are those of all lines of the point. -/
theorem listed_scores {f : IFrame} {c : AggConfig} (R : ListRequest f c) {pairs : List Val → List Pair}
    (L : Sl1l2Lines f.frame pairs) (etb : List PyNum → List PyNum → PyNum) (out : List AggOut)
    (Q : List String → ℕ → Prop)
    (hpool : ∀ p v d, List.Forall₂ (fun x q => x ∈ q.2) p (requestedValues c) → pointIndy f c p = some v →
      hasSemi v = true → d.cols = f.cols → d.frame.rows = rowsOfPoint f.frame c p →
      (d.rows.map Prod.fst).Pairwise (· < ·) →
      ∃ out group, aggregateFieldValues "sl1l2" (dictSet c.series c.indyVar [v]) d = .ok out ∧
        PooledFrame "sl1l2" d out (fun r => (pairs r).length) (fun c r => slField c (pairs r)) group ∧
        Q p out.rows.length)
    (h : listAxis "sl1l2" (lineStat .sl1l2 f.frame) etb f c = .ok out) :
    ∃ plain derived, out = plain ++ derived ∧
      (∀ p, p ∈ plain.map AggOut.point ↔ List.Forall₂ (fun x q => x ∈ q.2) p (requestedValues c)) ∧
      ∀ o ∈ plain, o.fcstVar = c.fcstVars.head? ∧ (rowsOfPoint f.frame c o.point = [] → o.value = .none) ∧
        (rowsOfPoint f.frame c o.point ≠ [] → ∃ s, o.point.getLast? = some s ∧
          PoolScore (lower s) ((rowsOfPoint f.frame c o.point).flatMap pairs) o.value) ∧
        ((∃ v, pointIndy f c o.point = some v ∧ hasSemi v = true) → Q o.point o.nstats) ∧
        ((∀ v, pointIndy f c o.point = some v → hasSemi v = false) →
          o.nstats = (rowsOfPoint f.frame c o.point).length) := by
  have hfe := fields_eq R.fields
  obtain ⟨plain, derived, e, hall⟩ := listAxis_split R.names ⟨R.rows, List.ne_nil_of_mem R.lead⟩
    (fun q hq v hm => (R.values q (hfe ▸ hq) v hm).2) h
  have hpts : ∀ (pts : List (List String)) (outs : List AggOut),
      List.Forall₂ (ListOut "sl1l2" (lineStat .sl1l2 f.frame) f c) pts outs → outs.map AggOut.point = pts ∧
      ∀ o ∈ outs, ListOut "sl1l2" (lineStat .sl1l2 f.frame) f c o.point o := by
    intro pts outs hf
    induction hf with
    | nil => exact ⟨rfl, by simp⟩
    | cons ha _ ih =>
      obtain ⟨rows, k1, rfl, k3⟩ := ha
      refine ⟨by simp [ih.1], fun o ho => ?_⟩
      rcases List.mem_cons.mp ho with rfl | ho
      · exact ⟨rows, k1, rfl, k3⟩
      · exact ih.2 o ho
  obtain ⟨hp, ho⟩ := hpts _ _ hall
  have hmem : ∀ p, p ∈ plain.map AggOut.point ↔ List.Forall₂ (fun x q => x ∈ q.2) p (requestedValues c) := by
    intro p
    rw [hp, AggConfig.plainPoints, mem_product, hfe, List.forall₂_map_right_iff]
  refine ⟨plain, derived, e, hmem, ?_⟩
  intro o hm
  have hfo := (hmem o.point).mp (List.mem_map_of_mem hm)
  obtain ⟨rows, ⟨d, hd, hcase⟩, -, h2, h3, h4⟩ := ho o hm
  obtain ⟨d1, d2, d3⟩ := pointFrame_rows R hfo hd
  have Ld : Sl1l2Lines d.frame pairs := meanLines_sub L d1 (by
    intro r hr
    rw [d2] at hr
    exact (List.mem_filter.mp hr).1)
  obtain ⟨a, s, hs1, hs2⟩ := last_stat hfo
  have hstat : ∀ old, pointStat c.stats o.point old = lower s := by
    intro old
    rw [hs1, pointStat_last _ _ _ _ hs2]
  have hlast : o.point.getLast? = some s := by rw [hs1]; simp
  rcases hcase with ⟨k1, k2⟩ | ⟨v, g, k1, k2, k3, k4⟩
  · rw [d2] at k2
    refine ⟨h2, ?_, ?_, ?_, fun _ => by rw [h3, k2]⟩
    · intro he
      rcases h4 with ⟨-, h4⟩ | ⟨h4, -⟩
      · exact h4
      · exact absurd (k2.trans he) h4
    · intro hne
      rcases h4 with ⟨h4, -⟩ | ⟨-, old, h4⟩
      · exact absurd (k2.symm.trans h4) hne
      · refine ⟨s, hlast, ?_⟩
        rw [hstat, k2] at h4
        obtain ⟨data, hsd⟩ := sortData_ok (f := f.frame) R.valid R.lead (rowsOfPoint f.frame c o.point)
        exact sl_value L hsd hne (fun r hr => (List.mem_filter.mp hr).1) h4
    · rintro ⟨v, hv, hv'⟩
      rw [k1 v hv] at hv'
      simp at hv'
  · obtain ⟨g', group, a1, P, a2⟩ := hpool o.point v d hfo k1 k2 d1 d2 d3
    rw [k3] at a1
    simp only [Except.ok.injEq] at a1
    subst a1
    have hiff : rows = [] ↔ rowsOfPoint f.frame c o.point = [] := by
      rw [k4, ← d2]
      constructor
      · intro he
        have := P.perm
        rw [he, List.flatMap_nil] at this
        exact List.nil_perm.mp this
      · intro he
        have := P.perm
        rw [he] at this
        have := List.perm_nil.mp this
        rw [List.flatMap_eq_nil_iff] at this
        apply List.eq_nil_iff_forall_not_mem.mpr
        intro r hr
        exact P.ne r hr (this r hr)
    refine ⟨h2, ?_, ?_, ?_, ?_⟩
    · intro he
      rcases h4 with ⟨-, h4⟩ | ⟨h4, -⟩
      · exact h4
      · exact absurd (hiff.mpr he) h4
    · intro hne
      rcases h4 with ⟨h4, -⟩ | ⟨h5, old, h4⟩
      · exact absurd (hiff.mp h4) hne
      · refine ⟨s, hlast, ?_⟩
        rw [hstat, k4] at h4
        rw [← d2]
        exact pooled_value (f := f) (c := c) R.valid R.lead d1 Ld P (by rw [← k4]; exact h5) h4
    · intro _
      rw [h3, k4]
      have : g.frame.rows.length = g.rows.length := by simp [IFrame.frame]
      rw [this]
      exact a2
    · intro hno
      rw [hno v k1] at k2
      simp at k2

/-- The independent value of the point of an output row. -/
def IndyOf (c : AggConfig) (p : List String) (v : String) : Prop :=
  (c.indyVar, v) ∈ ((requestedValues c).map Prod.fst).zip p

theorem indyOf_lookup {f : IFrame} {c : AggConfig} (R : ListRequest f c) {p : List String}
    (hp : List.Forall₂ (fun x q => x ∈ q.2) p (requestedValues c)) {v : String} (hv : IndyOf c p v) :
    pointIndy f c p = some v := by
  unfold IndyOf at hv
  unfold pointIndy
  rw [if_pos R.indy, fields_eq R.fields]
  have key : ∀ (l : List String) (p : List String), (∀ a b, (c.indyVar, a) ∈ l.zip p → (c.indyVar, b) ∈ l.zip p → a = b) →
      (c.indyVar, v) ∈ l.zip p → (l.zip p).lookup c.indyVar = some v := by
    intro l p hu hm
    cases hl : (l.zip p).lookup c.indyVar with
    | none =>
      rw [List.lookup_eq_none_iff] at hl
      have := hl _ hm
      simp at this
    | some w => rw [hu w v (zip_lookup hl) hm]
  refine key _ _ ?_ hv
  intro a b ha hb
  have hzip : ∀ (l₁ l₂ : List String) (p : List String), c.indyVar ∉ l₁ → c.indyVar ∉ l₂ → ∀ a b,
      (c.indyVar, a) ∈ (l₁ ++ c.indyVar :: l₂).zip p → (c.indyVar, b) ∈ (l₁ ++ c.indyVar :: l₂).zip p → a = b := by
    intro l₁ l₂ p h1 h2 a b ha hb
    induction l₁ generalizing p with
    | nil =>
      cases p with
      | nil => simp at ha
      | cons x p =>
        simp only [List.nil_append, List.zip_cons_cons, List.mem_cons, Prod.mk.injEq, true_and] at ha hb
        rcases ha with rfl | ha
        · rcases hb with rfl | hb
          · rfl
          · exact absurd (List.of_mem_zip hb).1 h2
        · exact absurd (List.of_mem_zip ha).1 h2
    | cons y l₁ ih =>
      cases p with
      | nil => simp at ha
      | cons x p =>
        simp only [List.mem_cons, not_or] at h1
        simp only [List.cons_append, List.zip_cons_cons, List.mem_cons, Prod.mk.injEq] at ha hb
        exact ih p h1.2 (ha.resolve_left (fun h => h1.1 h.1)) (hb.resolve_left (fun h => h1.1 h.1))
  by_cases he : c.indyVals = []
  · have : c.indyVar ∉ (requestedValues c).map Prod.fst := by
      unfold requestedValues
      simp only [he, if_true, List.append_nil, List.map_append, List.map_cons, List.map_nil, List.mem_append,
        List.mem_singleton, not_or]
      exact ⟨R.fields.1, R.fields.2.2⟩
    exact absurd (List.of_mem_zip ha).1 this
  · have e : (requestedValues c).map Prod.fst = c.series.map Prod.fst ++ c.indyVar :: ["stat_name"] := by
      unfold requestedValues
      simp [he]
    rw [e] at ha hb
    exact hzip _ _ _ R.fields.1 (by simpa using R.fields.2.2) a b ha hb

/-- C256: on SL1L2 lines with forecast leads as independent variable, the value of every point is the score of all matched
pairs of its lines, also when its independent value lists several leads ("12;24"), which are pooled per valid time first.
For such a point nstats is the number of valid times, not of lines.  Missing: other line types (see
`C256_counterexample`) and lists among the series values when there is also a list of leads
(`C256_two_lists_counterexample`). -/
theorem C256_leads_partial {f : IFrame} {c : AggConfig} (R : ListRequest f c) (hindy : c.indyVar = "fcst_lead")
    (hints : ∀ v ∈ c.indyVals, ';' ∈ v.toList → ∀ w ∈ semiParts v, ∃ z, IsIntText w z)
    {pairs : List Val → List Pair} (L : Sl1l2Lines f.frame pairs) (etb : List PyNum → List PyNum → PyNum)
    (out : List AggOut) (h : listAxis "sl1l2" (lineStat .sl1l2 f.frame) etb f c = .ok out) :
    ∃ plain derived, out = plain ++ derived ∧
      (∀ p, p ∈ plain.map AggOut.point ↔ List.Forall₂ (fun x q => x ∈ q.2) p (requestedValues c)) ∧
      ∀ o ∈ plain, o.fcstVar = c.fcstVars.head? ∧ (rowsOfPoint f.frame c o.point = [] → o.value = .none) ∧
        (rowsOfPoint f.frame c o.point ≠ [] → ∃ s, o.point.getLast? = some s ∧
          PoolScore (lower s) ((rowsOfPoint f.frame c o.point).flatMap pairs) o.value) ∧
        (∀ v, IndyOf c o.point v → ';' ∈ v.toList → ∃ valids : List Val, valids.Nodup ∧ o.nstats = valids.length ∧
          ∀ x, x ∈ valids ↔ ∃ r ∈ rowsOfPoint f.frame c o.point, HasCell f.frame r "fcst_valid_beg" x) ∧
        (∀ v, IndyOf c o.point v → ';' ∉ v.toList → o.nstats = (rowsOfPoint f.frame c o.point).length) := by
  obtain ⟨plain, derived, e, hmem, hval⟩ := listed_scores R L etb out
    (fun p k => ∃ valids : List Val, valids.Nodup ∧ k = valids.length ∧
      ∀ x, x ∈ valids ↔ ∃ r ∈ rowsOfPoint f.frame c p, HasCell f.frame r "fcst_valid_beg" x) (by
    intro p v d hfo hv hsemi d1 d2 d3
    obtain ⟨m1, m2⟩ := pointIndy_some R.fields hfo hv
    have hsub : ∀ r ∈ d.frame.rows, r ∈ f.frame.rows := by
      intro r hr
      rw [d2] at hr
      exact (List.mem_filter.mp hr).1
    have hs' : ';' ∈ v.toList := by simpa [hasSemi] using hsemi
    have hall : ∀ r ∈ d.frame.rows, InLeads d.frame v r := by
      intro r hr
      rw [d2] at hr
      have := (List.mem_filter.mp hr).2
      simp only [decide_eq_true_eq] at this
      obtain ⟨cell, hc, ha⟩ := this.1 _ m2 R.indy
      obtain ⟨w, hw, hcw⟩ := cellAmong_list ha hs' (R.lists v m1 hs')
      obtain ⟨z, hz⟩ := hints v m1 hs' w hw
      have hw0 : w ≠ "" := by
        rintro rfl
        have := (pyInt?_iff "" z).mpr hz
        revert this
        have : pyInt? "" = none := by decide +kernel
        rw [this]
        simp
      simp only [hindy] at hc
      refine ⟨w, hw, hw0, z, hz, ?_⟩
      rcases hcw with ⟨z', hz', t, rfl⟩ | ⟨q, hq, t, rfl⟩ | ⟨hno, -, -⟩
      · have : z' = z := by
          have h1 := (pyInt?_iff _ _).mpr hz
          have h2 := (pyInt?_iff _ _).mpr hz'
          rw [h1] at h2
          simpa using h2.symm
        subst this
        exact ⟨t, (hasCell_cols d1 _ _ _).mpr hc⟩
      · exact absurd ⟨by simp [isStringInteger, (pyInt?_iff _ _).mpr hz], (isDecimal_iff w).mp ⟨q, hq⟩⟩ (C53_exclusive w)
      · exact absurd hz (hno z)
    have I : LeadInput d v := by
      refine ⟨?_, by rw [d1]; exact R.valid, by rw [d1]; exact R.lead, d3, ?_, ?_⟩
      · intro r hr
        rw [R.wf r (hsub r hr)]
        exact congrArg List.length d1.symm
      · intro r hr hc
        exact (R.times r (hsub r hr)).1 ((hasCell_cols d1 _ _ _).mp hc)
      · intro w hw _
        exact hints v m1 hs' w hw
    have hser := only_list R.fields R.series hsemi
    rw [hindy] at hser
    have Ld : Sl1l2Lines d.frame pairs := meanLines_sub L d1 hsub
    obtain ⟨g, group, a1, a2, valids, a3, a4⟩ := pool_leads (Or.inl rfl) v _ d I hser (sl_mean Ld) hall
    rw [hindy]
    refine ⟨g, group, a1, a2, valids, a3.1, a4, fun x => ?_⟩
    rw [a3.2, d2]
    simp only [hasCell_cols (f := d.frame) (g := f.frame) d1]) h
  refine ⟨plain, derived, e, hmem, fun o ho => ?_⟩
  obtain ⟨v1, v2, v3, v4, v5⟩ := hval o ho
  have hfo := (hmem o.point).mp (List.mem_map_of_mem ho)
  have hindyOf : ∀ v, IndyOf c o.point v → pointIndy f c o.point = some v := fun v hv => indyOf_lookup R hfo hv
  refine ⟨v1, v2, v3, ?_, ?_⟩
  · intro v hv hs
    exact v4 ⟨v, hindyOf v hv, by simpa [hasSemi] using hs⟩
  · intro v hv hs
    apply v5
    intro w hw
    rw [hindyOf v hv] at hw
    simp only [Option.some.injEq] at hw
    subst hw
    simpa [hasSemi] using hs

/-- C256: the same for a list of values of another independent variable ("EAST;NMT"), whose lines are pooled per valid time
and lead, provided every valid time of a point occurs with every lead of the point. -/
theorem C256_regions_partial {f : IFrame} {c : AggConfig} (R : ListRequest f c) (hindy : c.indyVar ≠ "fcst_lead")
    (hindy' : c.indyVar ≠ "fcst_valid_beg")
    (htext : ∀ v ∈ c.indyVals, ';' ∈ v.toList → ∀ w ∈ semiParts v, PlainText w)
    (hcomplete : ∀ p v, List.Forall₂ (fun x q => x ∈ q.2) p (requestedValues c) → IndyOf c p v → ';' ∈ v.toList →
      ∀ r ∈ rowsOfPoint f.frame c p, ∀ r' ∈ rowsOfPoint f.frame c p, ∀ valid lead,
        HasCell f.frame r "fcst_valid_beg" valid → HasCell f.frame r' "fcst_lead" lead →
        ∃ r'' ∈ rowsOfPoint f.frame c p, AtTime f.frame valid lead r'')
    {pairs : List Val → List Pair} (L : Sl1l2Lines f.frame pairs) (etb : List PyNum → List PyNum → PyNum)
    (out : List AggOut) (h : listAxis "sl1l2" (lineStat .sl1l2 f.frame) etb f c = .ok out) :
    ∃ plain derived, out = plain ++ derived ∧
      (∀ p, p ∈ plain.map AggOut.point ↔ List.Forall₂ (fun x q => x ∈ q.2) p (requestedValues c)) ∧
      ∀ o ∈ plain, o.fcstVar = c.fcstVars.head? ∧ (rowsOfPoint f.frame c o.point = [] → o.value = .none) ∧
        (rowsOfPoint f.frame c o.point ≠ [] → ∃ s, o.point.getLast? = some s ∧
          PoolScore (lower s) ((rowsOfPoint f.frame c o.point).flatMap pairs) o.value) := by
  obtain ⟨plain, derived, e, hmem, hval⟩ := listed_scores R L etb out (fun _ _ => True) (by
    intro p v d hfo hv hsemi d1 d2 d3
    obtain ⟨m1, m2⟩ := pointIndy_some R.fields hfo hv
    have hsub : ∀ r ∈ d.frame.rows, r ∈ f.frame.rows := by
      intro r hr
      rw [d2] at hr
      exact (List.mem_filter.mp hr).1
    have hs' : ';' ∈ v.toList := by simpa [hasSemi] using hsemi
    have hall : ∀ r ∈ d.frame.rows, InRegion d.frame c.indyVar v r := by
      intro r hr
      rw [d2] at hr
      have := (List.mem_filter.mp hr).2
      simp only [decide_eq_true_eq] at this
      obtain ⟨cell, hc, ha⟩ := this.1 _ m2 R.indy
      obtain ⟨w, hw, hcw⟩ := cellAmong_list ha hs' (R.lists v m1 hs')
      obtain ⟨t1, t2, -⟩ := htext v m1 hs' w hw
      refine ⟨w, hw, (hasCell_cols (f := d.frame) (g := f.frame) d1 _ _ _).mpr ?_⟩
      rcases hcw with ⟨z', hz', -⟩ | ⟨q, hq, -⟩ | ⟨-, -, rfl⟩
      · exact absurd hz' (t1 z')
      · exact absurd hq (t2 q)
      · exact hc
    have I : RegionInput d c.indyVar v := by
      refine ⟨?_, by rw [d1]; exact R.valid, by rw [d1]; exact R.lead, by rw [d1]; exact R.indy, hindy, d3, ?_⟩
      · intro r hr
        rw [R.wf r (hsub r hr)]
        exact congrArg List.length d1.symm
      · intro r hr
        rw [hasCell_cols (f := d.frame) (g := f.frame) d1, hasCell_cols (f := d.frame) (g := f.frame) d1]
        exact R.times r (hsub r hr)
    have Ld : Sl1l2Lines d.frame pairs := meanLines_sub L d1 hsub
    obtain ⟨g, group, a1, a2, -⟩ := pool_regions (Or.inl rfl) c.indyVar v _ d I (only_list R.fields R.series hsemi)
      hindy' (sl_mean Ld) hall (by
      rintro valid lead ⟨r, hr, h1⟩ ⟨r', hr', h2⟩
      rw [hasCell_cols (f := d.frame) (g := f.frame) d1] at h1 h2
      rw [d2] at hr hr' ⊢
      obtain ⟨r'', hr'', h3⟩ := hcomplete p v hfo m2 hs' r hr r' hr' valid lead h1 h2
      refine ⟨r'', hr'', ?_⟩
      unfold AtTime at h3 ⊢
      rw [hasCell_cols (f := d.frame) (g := f.frame) d1, hasCell_cols (f := d.frame) (g := f.frame) d1]
      exact h3)
    exact ⟨g, group, a1, a2, trivial⟩) h
  refine ⟨plain, derived, e, hmem, fun o ho => ?_⟩
  obtain ⟨v1, v2, v3, -, -⟩ := hval o ho
  exact ⟨v1, v2, v3⟩

/-! ### Requests without lists -/

theorem foldlM_simulate {ε σ τ α : Type} (g : σ → α → Except ε σ) (k : τ → α → Except ε τ) (R : σ → τ → Prop)
    (l : List α) (hstep : ∀ a ∈ l, ∀ s t, R s t → (∃ e, g s a = .error e ∧ k t a = .error e) ∨
      ∃ s' t', g s a = .ok s' ∧ k t a = .ok t' ∧ R s' t') (s : σ) (t : τ) (h : R s t) :
    (∃ e, l.foldlM g s = .error e ∧ l.foldlM k t = .error e) ∨
      ∃ s' t', l.foldlM g s = .ok s' ∧ l.foldlM k t = .ok t' ∧ R s' t' := by
  induction l generalizing s t with
  | nil => exact Or.inr ⟨s, t, rfl, rfl, h⟩
  | cons a l ih =>
    simp only [List.foldlM_cons]
    rcases hstep a (by simp) s t h with ⟨e, h1, h2⟩ | ⟨s', t', h1, h2, h3⟩
    · rw [h1, h2]
      exact Or.inl ⟨e, rfl, rfl⟩
    · rw [h1, h2]
      exact ih (fun b hb => hstep b (by simp [hb])) s' t' h3

/-- C256: when no independent value is a list, nothing is pooled, whatever the line type and also when series values are
lists: the table is that of `aggAxis`, for which C99–C103 and C205–C255 are proved. -/
theorem C256_without_lists (lt : String) (statOf : String → List (List Val) → Except PyErr PyNum)
    (etb : List PyNum → List PyNum → PyNum) (f : IFrame) (c : AggConfig) (hnames : PlainNames c) (hdist : FieldsDistinct c)
    (hplain : ∀ v ∈ c.indyVals, ';' ∉ v.toList) :
    listAxis lt statOf etb f c = aggAxis statOf etb f.frame c := by
  unfold listAxis aggAxis
  split
  · rfl
  · cases hm : c.derived.mapM (derivedEntry c) with
    | error e => rfl
    | ok entries =>
      simp only [bind, Except.bind]
      have hs0 : c.series.any (fun p => hasSemi p.1) = false := by
        rw [List.any_eq_false]
        intro q hq
        have := hnames q.1 (List.mem_cons_of_mem _ (List.mem_map_of_mem hq))
        simpa [hasSemi] using this
      have hder : ∀ p ∈ entries.flatMap (fun e => e.2.2), isDerivedPoint (some p) = true := by
        intro p hp
        obtain ⟨e, he, hpe⟩ := List.mem_flatMap.mp hp
        obtain ⟨d, -, hde⟩ : ∃ d ∈ c.derived, derivedEntry c d = .ok e := forall₂_right_mem (mapM_except_mem _ hm) he
        exact (derivedEntry_points hdist hde).2 p hpe
      have hstep : ∀ p ∈ c.plainPoints ++ entries.flatMap (fun e => e.2.2),
          ∀ (s : AggState × List (String × List String)) (t : AggState), (s.1 = t ∧ s.2 = c.series) →
          (∃ e, listStep lt statOf etb f c (entries.foldl (fun d e => dictSet d e.1 e.2.1) []) s p = .error e ∧
            aggStep statOf etb f.frame c (entries.foldl (fun d e => dictSet d e.1 e.2.1) []) t p = .error e) ∨
          ∃ s' t', listStep lt statOf etb f c (entries.foldl (fun d e => dictSet d e.1 e.2.1) []) s p = .ok s' ∧
            aggStep statOf etb f.frame c (entries.foldl (fun d e => dictSet d e.1 e.2.1) []) t p = .ok t' ∧
            (s'.1 = t' ∧ s'.2 = c.series) := by
        rintro p hp ⟨s, ser⟩ t ⟨e1, e2⟩
        simp only at e1 e2
        subst e1 e2
        unfold listStep aggStep
        cases hd : isDerivedPoint (some p) with
        | true =>
          simp only [if_true, bind, Except.bind]
          have : f.cols = f.frame.cols := rfl
          rw [this]
          cases derivedPoint statOf etb f.frame.cols c.groups (entries.foldl (fun d e => dictSet d e.1 e.2.1) [])
            (pointStat c.stats p s.stat) s.results p with
          | error e => exact Or.inl ⟨e, rfl, rfl⟩
          | ok v => exact Or.inr ⟨_, _, rfl, rfl, rfl, rfl⟩
        | false =>
          simp only [Bool.false_eq_true, if_false, bind, Except.bind]
          have hpp : p ∈ c.plainPoints := by
            rcases List.mem_append.mp hp with h | h
            · exact h
            · rw [hder p h] at hd; simp at hd
          have hfo : List.Forall₂ (fun x q => x ∈ q.2) p (requestedValues c) := by
            rw [AggConfig.plainPoints, mem_product, fields_eq hdist, List.forall₂_map_right_iff] at hpp
            exact hpp
          have hpool : ∀ d, poolPoint lt c.indyVar c.series (pointIndy f c p) d = .ok (c.series, d) := by
            intro d
            unfold poolPoint
            rw [hs0]
            simp only [Bool.false_eq_true, if_false]
            cases hi : pointIndy f c p with
            | none => rfl
            | some v =>
              have := hplain v (pointIndy_some hdist hfo hi).1
              have : hasSemi v = false := by simpa [hasSemi] using this
              simp only [this, Bool.false_eq_true, if_false]
          unfold pointFrame pointRows
          by_cases hb : (pointFilters f.frame ((c.fields.map Prod.fst).zip p) c.fcstVars.head?).isEmpty = true
          · simp only [hb, if_true]
            exact Or.inl ⟨_, rfl, rfl⟩
          · simp only [hb, Bool.false_eq_true, if_false, hpool]
            have hrows : (IFrame.frame { f with rows := f.rows.filter (fun r =>
                (pointFilters f.frame ((c.fields.map Prod.fst).zip p) c.fcstVars.head?).all (fun q => q r.2)) }).rows =
                f.frame.rows.filter (fun r =>
                (pointFilters f.frame ((c.fields.map Prod.fst).zip p) c.fcstVars.head?).all (fun q => q r)) := by
              unfold IFrame.frame
              simp only
              rw [List.filter_map]
              rfl
            rw [hrows]
            by_cases he : (f.frame.rows.filter (fun r =>
                (pointFilters f.frame ((c.fields.map Prod.fst).zip p) c.fcstVars.head?).all (fun q => q r))).isEmpty = true
            · simp only [he, if_true]
              exact Or.inr ⟨_, _, rfl, rfl, rfl, rfl⟩
            · simp only [he, Bool.false_eq_true, if_false]
              cases statOf (pointStat c.stats p s.stat) (f.frame.rows.filter (fun r =>
                (pointFilters f.frame ((c.fields.map Prod.fst).zip p) c.fcstVars.head?).all (fun q => q r))) with
              | error e => exact Or.inl ⟨e, rfl, rfl⟩
              | ok v => exact Or.inr ⟨_, _, rfl, rfl, rfl, rfl⟩
      rcases foldlM_simulate _ _ (fun (s : AggState × List (String × List String)) (t : AggState) =>
          s.1 = t ∧ s.2 = c.series) _ hstep (⟨"", [], []⟩, c.series) ⟨"", [], []⟩ ⟨rfl, rfl⟩ with
        ⟨e, h1, h2⟩ | ⟨s', t', h1, h2, h3, -⟩
      · rw [h1, h2]
      · rw [h1, h2]
        simp only [h3]

/-! ### Examples -/

/-- Lines of two regions at two valid times and three leads. -/
def exListFrame : IFrame :=
  { cols := ["fcst_valid_beg", "fcst_lead", "vx_mask", "fcst_var", "stat_name", "total", "fbar", "obar", "fobar", "ffbar",
      "oobar"]
    rows := [
      (0, [.str "t1", .num 12 "12", .str "EAST", .str "TMP", .str "ME", .num 2 "2", .num 3 "3", .num 2 "2", .num 7 "7", .num 10 "10", .num 5 "5"]),
      (1, [.str "t1", .num 24 "24", .str "EAST", .str "TMP", .str "ME", .num 1 "1", .num 9 "9", .num 1 "1", .num 9 "9", .num 81 "81", .num 1 "1"]),
      (2, [.str "t2", .num 12 "12", .str "EAST", .str "TMP", .str "ME", .num 1 "1", .num 3 "3", .num 2 "2", .num 6 "6", .num 9 "9", .num 4 "4"]),
      (3, [.str "t2", .num 36 "36", .str "EAST", .str "TMP", .str "ME", .num 1 "1", .num 8 "8", .num 2 "2", .num 16 "16", .num 64 "64", .num 4 "4"]),
      (4, [.str "t1", .num 12 "12", .str "NMT", .str "TMP", .str "ME", .num 2 "2", .num 2 "2", .num 2 "2", .num 5 "5", .num 5 "5", .num 5 "5"])] }

/-- The pairs behind the lines. -/
def exListPairs (r : List Val) : List Pair :=
  if cellAt r 2 = .str "NMT" then [(1, 1), (3, 3)]
  else if cellAt r 0 = .str "t1" then if cellAt r 1 = .num 12 "12" then [(2, 1), (4, 3)] else [(9, 1)]
  else if cellAt r 1 = .num 12 "12" then [(3, 2)] else [(8, 2)]

theorem exList_lines : Sl1l2Lines exListFrame.frame exListPairs := by
  have key : ∀ (i : ℕ) (c : String) (g : List Val → ℚ), exListFrame.frame.cols[i]? = some c →
      (∀ j < i, exListFrame.frame.cols[j]? ≠ some c) →
      (∀ r ∈ exListFrame.frame.rows, numberOf (cellAt r i) = some (g r)) →
      ∀ r ∈ exListFrame.frame.rows, HasNumber exListFrame.frame r c (g r) := by
    intro i c g h1 h2 h3 r hr
    have := h3 r hr
    unfold cellAt at this
    cases h : r[i]? with
    | none => rw [h] at this; simp [numberOf] at this
    | some v =>
      rw [h] at this
      cases v with
      | num q t =>
        simp only [Option.getD_some, numberOf, Option.some.injEq] at this
        exact ⟨t, i, h1, h2, this ▸ h⟩
      | str s => simp [numberOf] at this
      | null => simp [numberOf] at this
  exact ⟨by decide, key 5 _ _ (by decide) (by decide) (by decide +kernel),
    key 6 _ _ (by decide) (by decide) (by decide +kernel), key 7 _ _ (by decide) (by decide) (by decide +kernel),
    key 8 _ _ (by decide) (by decide) (by decide +kernel), key 9 _ _ (by decide) (by decide) (by decide +kernel),
    key 10 _ _ (by decide) (by decide) (by decide +kernel)⟩

/-- The leads 12 and 24 together, and the lead 36. -/
def exLeadConfig : AggConfig :=
  ⟨[("vx_mask", ["EAST", "NMT"])], "fcst_lead", ["12;24", "36"], ["ME"], [], ["TMP"], []⟩

/-- Both regions together, at lead 12. -/
def exRegionConfig : AggConfig :=
  ⟨[("fcst_lead", ["12"])], "vx_mask", ["EAST;NMT"], ["ME"], [], ["TMP"], []⟩

theorem standsFor_two {v a b : String} (h1 : ':' ∉ v.toList) (h2 : v.toList = a.toList ++ ';' :: b.toList)
    (h3 : ';' ∉ a.toList) (h4 : ';' ∉ b.toList) : StandsFor v [a, b] := by
  refine Or.inr ⟨h1, by simp, ?_, by simp [h3, h4]⟩
  rw [h2]
  simp [List.intercalate]

theorem exLead_request : ListRequest exListFrame exLeadConfig where
  wf := by unfold FrameWF; decide
  rows := by decide
  labels := by decide
  valid := by decide
  lead := by decide
  indy := by decide
  times := by
    have h1 : exListFrame.frame.idx? "fcst_valid_beg" = some 0 := by decide +kernel
    have h2 : exListFrame.frame.idx? "fcst_lead" = some 1 := by decide +kernel
    intro r hr
    rw [hasCell_iff h1, hasCell_iff h2]
    revert r
    decide +kernel
  names := by unfold PlainNames; decide
  fields := by unfold FieldsDistinct; decide
  values := by
    intro q hq v hv
    have : v = "EAST" ∨ v = "NMT" ∨ v = "12;24" ∨ v = "36" ∨ v = "ME" := by
      revert v
      revert q
      decide
    rcases this with rfl | rfl | rfl | rfl | rfl
    · exact ⟨⟨_, standsFor_self (by decide) (by decide)⟩, by decide +kernel⟩
    · exact ⟨⟨_, standsFor_self (by decide) (by decide)⟩, by decide +kernel⟩
    · exact ⟨⟨_, standsFor_two (a := "12") (b := "24") (by decide) (by decide) (by decide) (by decide)⟩, by decide +kernel⟩
    · exact ⟨⟨_, standsFor_self (by decide) (by decide)⟩, by decide +kernel⟩
    · exact ⟨⟨_, standsFor_self (by decide) (by decide)⟩, by decide +kernel⟩
  series := by decide
  lists := by decide

/-- The error of the leads 12 and 24 over the eastern region is (1 + 1 + 8 + 1) / 4, from two valid times. -/
theorem exLead_result : listAxis "sl1l2" (lineStat .sl1l2 exListFrame.frame) (fun _ _ => .none) exListFrame exLeadConfig =
    .ok [⟨["EAST", "12;24", "ME"], some "TMP", .num (11 / 4), 2⟩, ⟨["EAST", "36", "ME"], some "TMP", .num 6, 1⟩,
      ⟨["NMT", "12;24", "ME"], some "TMP", .num 0, 1⟩, ⟨["NMT", "36", "ME"], some "TMP", .none, 0⟩] := by
  decide +kernel

/-- C256 (example): the hypotheses hold for the lists of leads. -/
example := C256_leads_partial exLead_request rfl (by
  intro v hv hs w hw
  have : w = "12" ∨ w = "24" := by
    revert w
    revert v
    decide +kernel
  rcases this with rfl | rfl
  · exact ⟨12, (pyInt?_iff _ _).mp (by decide +kernel)⟩
  · exact ⟨24, (pyInt?_iff _ _).mp (by decide +kernel)⟩) exList_lines (fun _ _ => .none) _ exLead_result

theorem exRegion_request : ListRequest exListFrame exRegionConfig where
  wf := exLead_request.wf
  rows := by decide
  labels := by decide
  valid := by decide
  lead := by decide
  indy := by decide
  times := exLead_request.times
  names := by unfold PlainNames; decide
  fields := by unfold FieldsDistinct; decide
  values := by
    intro q hq v hv
    have : v = "12" ∨ v = "EAST;NMT" ∨ v = "ME" := by
      revert v
      revert q
      decide
    rcases this with rfl | rfl | rfl
    · exact ⟨⟨_, standsFor_self (by decide) (by decide)⟩, by decide +kernel⟩
    · exact ⟨⟨_, standsFor_two (a := "EAST") (b := "NMT") (by decide) (by decide) (by decide) (by decide)⟩,
        by decide +kernel⟩
    · exact ⟨⟨_, standsFor_self (by decide) (by decide)⟩, by decide +kernel⟩
  series := by decide
  lists := by decide

/-- The error of both regions at lead 12 is (1 + 1 + 1 + 0 + 0) / 5. -/
theorem exRegion_result :
    listAxis "sl1l2" (lineStat .sl1l2 exListFrame.frame) (fun _ _ => .none) exListFrame exRegionConfig =
    .ok [⟨["12", "EAST;NMT", "ME"], some "TMP", .num (3 / 5), 2⟩] := by
  decide +kernel

/-- C256 (example): the hypotheses hold for the list of regions. -/
example := C256_regions_partial exRegion_request (by decide) (by decide) (by
    intro v hv hs w hw
    have : w = "EAST" ∨ w = "NMT" := by
      revert w
      revert v
      decide +kernel
    rcases this with rfl | rfl <;> exact plainText_of (by decide) (by decide) (by decide)) (by
    intro p v hp _ _ r hr r' hr' valid lead h1 h2
    have h2' : exListFrame.frame.idx? "fcst_lead" = some 1 := by decide +kernel
    have hlead : ∀ s ∈ rowsOfPoint exListFrame.frame exRegionConfig p, HasCell exListFrame.frame s "fcst_lead" (.num 12 "12") := by
      intro s hs
      obtain ⟨hs1, hs2⟩ := List.mem_filter.mp hs
      simp only [decide_eq_true_eq] at hs2
      cases hp with
      | @cons x _ p' _ hx hrest =>
        have hx' : x = "12" := by simpa using hx
        subst hx'
        obtain ⟨cell, hc, ha⟩ := hs2.1 ("fcst_lead", "12") (by simp [requestedValues, exRegionConfig]) (by decide)
        rw [cellAmong_plain (by decide) (by decide)] at ha
        have hcell := hasCell_unique h2' hc
        have key : ∀ s ∈ exListFrame.frame.rows, partMatches (cellAt s 1) "12" = true → s[1]? = some (.num 12 "12") := by
          decide +kernel
        exact (hasCell_iff h2' _).mpr (key s hs1 (by rw [hcell]; exact ha))
    have e : lead = .num 12 "12" := (hasCell_unique h2' h2).symm.trans (hasCell_unique h2' (hlead r' hr'))
    subst e
    exact ⟨r, hr, h1, hlead r hr⟩) exList_lines (fun _ _ => .none) _ exRegion_result

/-- C256 (example): a list among the series values alone is not pooled. -/
example : listAxis "sl1l2" (lineStat .sl1l2 exListFrame.frame) (fun _ _ => .none) exListFrame
      { exLeadConfig with series := [("vx_mask", ["EAST;NMT"])], indyVals := ["12"] } =
    aggAxis (lineStat .sl1l2 exListFrame.frame) (fun _ _ => .none) exListFrame.frame
      { exLeadConfig with series := [("vx_mask", ["EAST;NMT"])], indyVals := ["12"] } :=
  C256_without_lists _ _ _ _ _ (by unfold PlainNames; decide) (by unfold FieldsDistinct; decide) (by decide)

/-- NBRCNT lines of two leads. -/
def exNbrLeads : IFrame :=
  { cols := ["fcst_valid_beg", "fcst_lead", "model", "fcst_var", "stat_name", "total", "fbs", "fss", "f_rate", "o_rate"]
    rows := [
      (0, [.str "t1", .num 12 "12", .str "A", .str "TMP", .str "NBR_FSS", .num 1 "", .num (1/10) "", .num (1/2) "",
        .num (1/2) "", .num (1/2) ""]),
      (1, [.str "t1", .num 24 "24", .str "A", .str "TMP", .str "NBR_FSS", .num 3 "", .num (1/5) "", .num (3/4) "",
        .num (1/4) "", .num (1/4) ""])] }

def exNbrConfig (v : String) : AggConfig := ⟨[("model", ["A"])], "fcst_lead", [v], ["NBR_FSS"], [], ["TMP"], []⟩

/-- C256 is false for other line types: for NBRCNT lines only the totals are pooled (calc_series_sums knows the line type
'nbrcnt', aggregations use 'nbr_cnt'), and the skill of the leads 12 and 24 is that of lead 12.  The skill of all lines
is 1 - 0.7 / 2.6. -/
theorem C256_counterexample :
    listAxis "nbr_cnt" (ensembleStat .nbrCnt exNbrLeads.frame) (fun _ _ => .none) exNbrLeads (exNbrConfig "12;24") =
      .ok [⟨["A", "12;24", "NBR_FSS"], some "TMP", .num (1 / 2), 1⟩] ∧
    listAxis "nbr_cnt" (ensembleStat .nbrCnt exNbrLeads.frame) (fun _ _ => .none) exNbrLeads (exNbrConfig "12") =
      .ok [⟨["A", "12", "NBR_FSS"], some "TMP", .num (1 / 2), 1⟩] ∧
    ensembleStat .nbrCnt exNbrLeads.frame "nbr_fss" exNbrLeads.frame.rows = .ok (.num (7307692 / 10000000)) := by
  decide +kernel

/-- Two regions and two leads at two valid times. -/
def exTwoLists : IFrame :=
  { cols := ["fcst_valid_beg", "fcst_lead", "vx_mask", "fcst_var", "stat_name", "total", "fbar", "obar", "fobar", "ffbar",
      "oobar"]
    rows := [("t1", 12, "EAST"), ("t1", 24, "EAST"), ("t1", 12, "NMT"), ("t1", 24, "NMT"), ("t2", 12, "EAST"),
      ("t2", 24, "EAST"), ("t2", 12, "NMT"), ("t2", 24, "NMT")].mapIdx (fun k (q : String × ℚ × String) =>
        (k, [.str q.1, .num q.2.1 "", .str q.2.2, .str "TMP", .str "ME", .num 1 "1", .num 3 "3", .num 2 "2", .num 6 "6",
          .num 9 "9", .num 4 "4"])) }

/-- C256 is false when a series value and an independent value are both lists: the pooled rows of the regions share one
label, so that pooling the leads of the first valid time removes all of them, and the run stops with a TypeError (the
total of the second valid time is None). -/
theorem C256_two_lists_counterexample :
    listAxis "sl1l2" (lineStat .sl1l2 exTwoLists.frame) (fun _ _ => .none) exTwoLists
      { exLeadConfig with series := [("vx_mask", ["EAST;NMT"])], indyVals := ["12;24"] } = .error .typeError ∧
    listAxis "sl1l2" (lineStat .sl1l2 exTwoLists.frame) (fun _ _ => .none) exTwoLists
      { exLeadConfig with series := [("vx_mask", ["EAST"])], indyVals := ["12;24"] } =
      .ok [⟨["EAST", "12;24", "ME"], some "TMP", .num 1, 2⟩] := by
  decide +kernel

end Metcalcpy.Props
