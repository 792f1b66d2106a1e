/-
C115  The table of economic values has the value curve of every series (partial).
-/
import Verif.Model.AggEclv
import Verif.Spec.AggEclv
import Verif.Props.C13_EconomicValue
import Verif.Props.C102_DerivedPoints

namespace Metcalcpy.Props
open Metcalcpy Spec

/-! ### The ratios -/

theorem clSteps_spec {step : ℚ} (h0 : 0 < step) : ∃ l, clSteps step = .ok l ∧ IsSteps step l := by
  unfold clSteps
  rw [if_neg h0.ne']
  refine ⟨_, rfl, ?_, ?_⟩
  · rw [List.pairwise_map]
    apply List.Pairwise.imp _ List.pairwise_lt_range
    intro a b hab
    have : (a : ℚ) < b := by exact_mod_cast hab
    nlinarith
  · intro x
    rw [List.mem_map]
    constructor
    · rintro ⟨k, hk, rfl⟩
      rw [List.mem_range, Nat.lt_ceil, lt_div_iff₀ h0] at hk
      refine ⟨by positivity, by linarith, k + 1, by push_cast; ring⟩
    · rintro ⟨hx, hx1, k, rfl⟩
      have hk : k ≠ 0 := by
        rintro rfl
        simp at hx
      obtain ⟨j, rfl⟩ := Nat.exists_eq_succ_of_ne_zero hk
      refine ⟨j, ?_, by push_cast; ring⟩
      rw [List.mem_range, Nat.lt_ceil, lt_div_iff₀ h0]
      push_cast at hx1
      linarith

theorem isSteps_unique {step : ℚ} {l l' : List ℚ} (h : IsSteps step l) (h' : IsSteps step l') : l = l' := by
  have hp : l.Perm l' := by
    rw [List.perm_ext_iff_of_nodup (h.1.imp (fun a => a.ne)) (h'.1.imp (fun a => a.ne))]
    intro x
    rw [h.2, h'.2]
  exact hp.eq_of_pairwise (fun a b _ _ h1 h2 => absurd h1 (not_lt.mpr h2.le)) h.1 h'.1

/-! ### The rows of a series -/

open Classical in
theorem eclvRows_eq {f : Frame} (hf : FrameWF f) {request : List (String × String)} (hc : ∃ q ∈ request, q.1 ∈ f.cols) :
    eclvRows f request = .ok (f.rows.filter (fun r => decide (RowOfSeries f request r))) := by
  unfold eclvRows
  simp only
  rw [if_neg]
  · congr 1
    apply List.filter_congr
    intro r hr
    rw [Bool.eq_iff_iff, decide_eq_true_iff, List.all_eq_true]
    constructor
    · intro h q hq hcol
      obtain ⟨i, hi⟩ := Frame.idx?_of_mem hcol
      have := h (fun r => partMatches (cellAt r i) q.2) (List.mem_filterMap.mpr ⟨q, hq, by simp [hi]⟩)
      exact ⟨cellAt r i, hasCell_cellAt hi (hf r hr), (partMatches_iff _ _).mp this⟩
    · intro h p hp
      obtain ⟨q, hq, he⟩ := List.mem_filterMap.mp hp
      cases hi : f.idx? q.1 with
      | none => rw [hi] at he; simp at he
      | some i =>
        rw [hi] at he
        simp only [Option.map_some, Option.some.injEq] at he
        subst he
        have hm : q.1 ∈ f.cols := by
          by_contra hn
          rw [Frame.idx?_eq_none.mpr hn] at hi
          simp at hi
        obtain ⟨v, hv, hm⟩ := h q hq hm
        have : cellAt r i = v := by
          rw [hasCell_iff hi] at hv
          unfold cellAt
          rw [hv]; rfl
        simp only
        rw [this]
        exact (partMatches_iff _ _).mpr hm
  · obtain ⟨q, hq, hm⟩ := hc
    obtain ⟨i, hi⟩ := Frame.idx?_of_mem hm
    intro he
    rw [List.isEmpty_iff, List.filterMap_eq_nil_iff] at he
    have := he q hq
    rw [hi] at this
    simp at this

/-! ### The counts of a series -/

theorem mapM_ok_map {α β : Type} (g : α → Except PyErr β) (k : α → β) (l : List α) (h : ∀ x ∈ l, g x = .ok (k x)) :
    l.mapM g = .ok (l.map k) := by
  induction l with
  | nil => rfl
  | cons a l ih =>
    rw [List.mapM_cons, h a (by simp), ih (fun x hx => h x (by simp [hx]))]
    rfl

/-- The number in a cell. -/
def numberIn : Val → ℚ
  | .num q _ => q
  | _ => 0

theorem columnNumbers_eq {f : Frame} {name : String} {i : ℕ} (hi : f.idx? name = some i) {rows : List (List Val)}
    {xs : List ℚ} (h : ColumnNumbers f rows name xs) :
    xs = rows.map (fun r => numberIn (cellAt r i)) ∧ ∀ r ∈ rows, ∃ t, cellAt r i = .num (numberIn (cellAt r i)) t := by
  unfold ColumnNumbers at h
  induction h with
  | nil => simp
  | @cons r x rows xs hx _ ih =>
    obtain ⟨t, ht⟩ := hx
    rw [hasCell_iff hi] at ht
    have hc : cellAt r i = .num x t := by
      unfold cellAt
      rw [ht]; rfl
    refine ⟨by rw [List.map_cons, ← ih.1, hc]; rfl, ?_⟩
    intro s hs
    rcases List.mem_cons.mp hs with rfl | hs
    · exact ⟨t, by rw [hc]; rfl⟩
    · exact ih.2 s hs

theorem frameTable_ok {f : Frame} {names : List String} (hnd : names.Nodup) {rows : List (List Val)} (hne : rows ≠ [])
    (nums : String → List ℚ) (hcol : ∀ n ∈ names, ColumnNumbers f rows n (nums n)) :
    ∃ t, frameTable f names rows = .ok t ∧ t.rows ≠ [] ∧ ∀ n ∈ names, CompleteColumn t n (nums n) := by
  have hidx : ∀ n ∈ names, f.idx? n = some ((f.idx? n).getD 0) := by
    intro n hn
    have h := hcol n hn
    unfold ColumnNumbers at h
    generalize nums n = xs at h
    cases h with
    | nil => exact absurd rfl hne
    | cons hx _ =>
      obtain ⟨t, i, h1, h2, -⟩ := hx
      rw [Frame.idx?_eq_some.mpr ⟨h1, h2⟩]
      rfl
  have h1 : names.mapM f.col = .ok (names.map (fun n => (f.idx? n).getD 0)) := by
    apply mapM_ok_map
    intro n hn
    unfold Frame.col
    rw [hidx n hn]
    rfl
  have h2 : rows.mapM (fun r => (names.map (fun n => (f.idx? n).getD 0)).mapM (fun i => numCell (cellAt r i))) =
      .ok (rows.map (fun r => (names.map (fun n => (f.idx? n).getD 0)).map (fun i => some (numberIn (cellAt r i))))) := by
    apply mapM_ok_map
    intro r hr
    apply mapM_ok_map
    intro i hi
    obtain ⟨n, hn, rfl⟩ := List.mem_map.mp hi
    obtain ⟨t, ht⟩ := (columnNumbers_eq (hidx n hn) (hcol n hn)).2 r hr
    rw [ht]
    rfl
  refine ⟨_, by unfold frameTable; rw [h1]; simp only [bind, Except.bind]; rw [h2], ?_, ?_⟩
  · simpa using hne
  · intro n hn
    obtain ⟨i, hi, hlt⟩ := List.getElem_of_mem hn
    refine ⟨i, by simp [hi, hlt], ?_, ?_⟩
    · intro j hj he
      have hj' : j < names.length := by omega
      rw [List.getElem?_eq_getElem hj'] at he
      have := (List.Nodup.getElem_inj_iff hnd).mp ((Option.some.inj he).trans hlt.symm)
      omega
    · rw [(columnNumbers_eq (hidx n hn) (hcol n hn)).1]
      simp only [List.map_map]
      apply List.map_congr_left
      intro r _
      simp [hi, hlt]

theorem eclvStat_ctc {f : Frame} {rows : List (List Val)} {k : Counts} (hne : rows ≠ []) (hk : CountsOf f rows k)
    (npf : Bool) (th : ℚ) (steps : List ℚ) :
    ∃ t, frameTable f ["total", "fy_oy", "fy_on", "fn_oy", "fn_on"] rows = .ok t ∧
      eclvStat npf t (some th) "ctc" steps (aggEclvAddBaseRate none) =
        .ok (economicValue [k.hits, k.alarms, k.misses, k.negatives] steps false) := by
  obtain ⟨n, h, a, m, c, hn, hh, ha, hm, hc, -, rfl⟩ := hk
  obtain ⟨t, ht, hr, hcol⟩ := frameTable_ok (f := f) (names := ["total", "fy_oy", "fy_on", "fn_oy", "fn_on"]) (by decide) hne
    (fun s => if s = "total" then n else if s = "fy_oy" then h else if s = "fy_on" then a
      else if s = "fn_oy" then m else c) (by
      intro s hs
      simp only [List.mem_cons, List.not_mem_nil, or_false] at hs
      rcases hs with rfl | rfl | rfl | rfl | rfl
      · exact hn
      · exact hh
      · exact ha
      · exact hm
      · exact hc)
  refine ⟨t, ht, ?_⟩
  have e1 : sumColumn t "fy_oy" = some h.sum := sumColumn_complete hr (hcol "fy_oy" (by simp)) _
  have e2 : sumColumn t "fy_on" = some a.sum := sumColumn_complete hr (hcol "fy_on" (by simp)) _
  have e3 : sumColumn t "fn_oy" = some m.sum := sumColumn_complete hr (hcol "fn_oy" (by simp)) _
  have e4 : sumColumn t "fn_on" = some c.sum := sumColumn_complete hr (hcol "fn_on" (by simp)) _
  unfold eclvStat
  rw [if_neg (by simp), if_neg (by simp), if_neg (by simp), e1, e2, e3, e4]
  rfl

theorem eclvPoint_ctc {f : Frame} (hf : FrameWF f) {names point : List String}
    (hc : ∃ q ∈ names.zip point, q.1 ∈ f.cols) (hth : "thresh_i" ∉ f.cols) {step : ℚ} {steps : List ℚ}
    (hs : IsSteps step steps) {k : Counts} (hk : CountsOf f (seriesRows f (names.zip point)) k) (npf : Bool) :
    (k.both → eclvPoint npf "ctc" ["total", "fy_oy", "fy_on", "fn_oy", "fn_on"] steps f names point =
      .ok (steps.map (fun x => ⟨point, 0, x, k.value x, (seriesRows f (names.zip point)).length⟩))) ∧
    (¬ k.both → eclvPoint npf "ctc" ["total", "fy_oy", "fy_on", "fn_oy", "fn_on"] steps f names point =
      .error .typeError) := by
  have hrows : eclvRows f (names.zip point) = .ok (seriesRows f (names.zip point)) := eclvRows_eq hf hc
  have hthr : eclvThresholds f (seriesRows f (names.zip point)) = [0] := by
    unfold eclvThresholds
    rw [Frame.idx?_eq_none.mpr hth]
  unfold eclvPoint
  rw [hrows]
  simp only [bind, Except.bind, hthr]
  generalize seriesRows f (names.zip point) = rows at hk
  by_cases hne : rows = []
  · subst hne
    obtain ⟨n, h, a, m, c, hn, hh, ha, hm, hc, -, rfl⟩ := hk
    cases hh
    cases hm
    refine ⟨fun hb => absurd hb.1 (by simp), fun _ => rfl⟩
  · have he : rows.isEmpty = false := by simpa using hne
    obtain ⟨t, ht, hst⟩ := eclvStat_ctc hne hk npf 0 steps
    rw [he, ht]
    simp only [Bool.false_eq_true, if_false, List.mapM_cons, List.mapM_nil, bind, Except.bind, pure, Except.pure, hst]
    constructor
    · intro hb
      obtain ⟨e, h1, h2, h3, h4, -⟩ := economicValue_ok k.hits k.alarms k.misses k.negatives steps false hb.1 hb.2
        (fun x hx => ⟨((hs.2 x).mp hx).1, ((hs.2 x).mp hx).2.1⟩)
      have hcl : e.cl = steps := by
        simp only [Bool.false_eq_true, if_false] at h2
        exact h2.eq_of_pairwise (fun a b _ _ h1 h2 => le_antisymm h1 h2) h3 (hs.1.imp le_of_lt)
      rw [h1]
      simp only [List.flatten_cons, List.flatten_nil, List.append_nil]
      rw [h4, hcl]
      congr 1
      simp only [List.zipWith_map_right, List.zipWith_self]
      rfl
    · intro hb
      obtain ⟨n, h, a, m, c, -, -, -, -, -, hpos, rfl⟩ := hk
      have s1 : 0 ≤ h.sum := List.sum_nonneg (fun x hx => hpos x (by simp [hx]))
      have s2 : 0 ≤ a.sum := List.sum_nonneg (fun x hx => hpos x (by simp [hx]))
      have s3 : 0 ≤ m.sum := List.sum_nonneg (fun x hx => hpos x (by simp [hx]))
      have s4 : 0 ≤ c.sum := List.sum_nonneg (fun x hx => hpos x (by simp [hx]))
      unfold Counts.both at hb
      simp only at hb
      have : h.sum + m.sum = 0 ∨ a.sum + c.sum = 0 := by
        by_contra hcon
        push Not at hcon
        exact hb ⟨lt_of_le_of_ne (by linarith) (Ne.symm hcon.1), lt_of_le_of_ne (by linarith) (Ne.symm hcon.2)⟩
      have hn := (C13_no_result [h.sum, a.sum, m.sum, c.sum] steps false).2 _ _ _ _ rfl
        (by rcases this with h | h <;> simp [h])
      rw [hn]

theorem mapM_error_of {α β : Type} (g : α → Except PyErr β) (e : PyErr) {l : List α}
    (h : ∀ x ∈ l, (∃ b, g x = .ok b) ∨ g x = .error e) (hx : ∃ x ∈ l, g x = .error e) : l.mapM g = .error e := by
  induction l with
  | nil => simp at hx
  | cons a l ih =>
    rw [List.mapM_cons]
    rcases h a (by simp) with ⟨b, hb⟩ | he
    · rw [hb]
      obtain ⟨x, hx, hxe⟩ := hx
      have hx' : x ∈ l := by
        rcases List.mem_cons.mp hx with rfl | hx
        · rw [hb] at hxe; cases hxe
        · exact hx
      simp only [bind, Except.bind]
      rw [ih (fun x hx => h x (by simp [hx])) ⟨x, hx', hxe⟩]
    · rw [he]; rfl

/-! ### C115 -/

/-- C115 (partial): contingency counts.  If every series has events and non-events, the table has, for every series in
order and every multiple of the step between 0 and 1, the relative economic value of the counts summed over exactly the rows
of the series, with the number of those rows.  If a single series has no event or no non-event (in particular, no rows), the
run fails and no series gets its curve: this is what keeps the claim from being true as stated. -/
theorem C115_curves_partial (npf : Bool) {step : ℚ} (h0 : 0 < step) {steps : List ℚ} (hs : IsSteps step steps)
    {f : Frame} (hf : FrameWF f) (hr : f.rows ≠ []) (hth : "thresh_i" ∉ f.cols) (series : List (String × List String))
    (hc : ∃ q ∈ series, q.1 ∈ f.cols) (counts : List String → Counts)
    (hk : ∀ p ∈ product (series.map Prod.snd), CountsOf f (seriesRows f ((series.map Prod.fst).zip p)) (counts p)) :
    ((∀ p ∈ product (series.map Prod.snd), (counts p).both) →
      aggEclv npf "ctc" step series f = .ok ((product (series.map Prod.snd)).flatMap (fun p => steps.map (fun x =>
        ⟨p, 0, x, (counts p).value x, (seriesRows f ((series.map Prod.fst).zip p)).length⟩)))) ∧
    ((∃ p ∈ product (series.map Prod.snd), ¬ (counts p).both) →
      aggEclv npf "ctc" step series f = .error .typeError) := by
  obtain ⟨l, hl, hl'⟩ := clSteps_spec h0
  obtain rfl := isSteps_unique hl' hs
  obtain ⟨q, hq, hqc⟩ := hc
  have hcols : f.isEmpty = false := by
    unfold Frame.isEmpty
    have : f.cols ≠ [] := List.ne_nil_of_mem hqc
    simp [this, hr]
  have hpt : ∀ p ∈ product (series.map Prod.snd), ∃ q ∈ (series.map Prod.fst).zip p, q.1 ∈ f.cols := by
    intro p hp
    have hlen : p.length = series.length := by
      have := List.Forall₂.length_eq (mem_product.mp hp)
      simpa using this
    obtain ⟨i, hi, rfl⟩ := List.getElem_of_mem hq
    refine ⟨(series[i].1, p[i]'(by omega)), ?_, hqc⟩
    rw [List.mem_iff_getElem]
    exact ⟨i, by simp; omega, by simp⟩
  have hrun : aggEclv npf "ctc" step series f = (do
      let parts ← (product (series.map Prod.snd)).mapM
        (eclvPoint npf "ctc" ["total", "fy_oy", "fy_on", "fn_oy", "fn_on"] l f (series.map Prod.fst))
      .ok parts.flatten) := by
    unfold aggEclv
    rw [hl]
    simp [eclvColumns, hcols, bind, Except.bind]
  rw [hrun]
  constructor
  · intro hb
    rw [mapM_ok_map _ (fun p => l.map (fun x =>
        (⟨p, 0, x, (counts p).value x, (seriesRows f ((series.map Prod.fst).zip p)).length⟩ : EclvOut))) _
      (fun p hp => (eclvPoint_ctc hf (hpt p hp) hth hs (hk p hp) npf).1 (hb p hp))]
    simp [bind, Except.bind, List.flatMap]
  · rintro ⟨p, hp, hb⟩
    rw [mapM_error_of _ .typeError]
    · rfl
    · intro x hx
      by_cases hb : (counts x).both
      · exact Or.inl ⟨_, (eclvPoint_ctc hf (hpt x hx) hth hs (hk x hx) npf).1 hb⟩
      · exact Or.inr ((eclvPoint_ctc hf (hpt x hx) hth hs (hk x hx) npf).2 hb)
    · exact ⟨p, hp, (eclvPoint_ctc hf (hpt p hp) hth hs (hk p hp) npf).2 hb⟩

/-- C115: no series field is a column of the input: the run fails. -/
theorem C115_no_field (npf : Bool) (lineType : String) {step : ℚ} (h0 : 0 < step)
    (hl : lineType = "ctc" ∨ lineType = "pct") {f : Frame} (hr : f.rows ≠ []) (hcol : f.cols ≠ [])
    (series : List (String × List String)) (hv : ∀ q ∈ series, q.2 ≠ []) (hc : ∀ q ∈ series, q.1 ∉ f.cols) :
    aggEclv npf lineType step series f = .error .keyError := by
  obtain ⟨l, hl1, -⟩ := clSteps_spec h0
  have he : f.isEmpty = false := by simp [Frame.isEmpty, hcol, hr]
  obtain ⟨cols, hcols⟩ : ∃ cols, eclvColumns lineType = .ok cols := by
    rcases hl with rfl | rfl <;> exact ⟨_, rfl⟩
  unfold aggEclv
  rw [hl1, hcols]
  simp only [bind, Except.bind, he, Bool.false_eq_true, if_false]
  have hpt : ∀ p, eclvPoint npf lineType cols l f (series.map Prod.fst) p = .error .keyError := by
    intro p
    unfold eclvPoint eclvRows
    have : ((series.map Prod.fst).zip p).filterMap
        (fun q => (f.idx? q.1).map (fun i r => partMatches (cellAt r i) q.2)) = [] := by
      rw [List.filterMap_eq_nil_iff]
      intro q hq
      have h1 : q.1 ∈ series.map Prod.fst := (List.of_mem_zip hq).1
      obtain ⟨s, hs, hs'⟩ := List.mem_map.mp h1
      rw [Frame.idx?_eq_none.mpr (hs' ▸ hc s hs)]
      rfl
    simp only [this]
    rfl
  have hne : product (series.map Prod.snd) ≠ [] := by
    clear hc hpt
    induction series with
    | nil => simp [product]
    | cons a s ih =>
      obtain ⟨b, v, hb⟩ := List.exists_cons_of_ne_nil (hv a (by simp))
      obtain ⟨c, w, hw⟩ := List.exists_cons_of_ne_nil (ih (fun q hq => hv q (by simp [hq])))
      simp [product, hb, hw]
  obtain ⟨p, ps, hp⟩ := List.exists_cons_of_ne_nil hne
  rw [hp, List.mapM_cons, hpt p]
  rfl

/-- C115: probabilistic counts.  With the pinned NumPy (which no longer has `np.float`) a run never gives a curve: it fails, or
its table is empty. -/
theorem C115_no_probabilistic_curve {step : ℚ} {series : List (String × List String)} {f : Frame} {out : List EclvOut}
    (h : aggEclv false "pct" step series f = .ok out) : out = [] := by
  unfold aggEclv at h
  cases hst : clSteps step with
  | error e => rw [hst] at h; cases h
  | ok steps =>
    rw [hst] at h
    have hcols : eclvColumns "pct" = .ok ["thresh_i", "oy_i", "on_i"] := by decide
    rw [hcols] at h
    simp only [bind, Except.bind] at h
    split at h
    · cases h; rfl
    · split at h
      · cases h
      · rename_i parts hparts
        have key : ∀ p o, eclvPoint false "pct" ["thresh_i", "oy_i", "on_i"] steps f (series.map Prod.fst) p = .ok o →
            o = [] := by
          intro p o ho
          unfold eclvPoint at ho
          simp only [bind, Except.bind] at ho
          split at ho
          · cases ho
          · rename_i rows _
            split at ho
            · split at ho
              · cases ho; rfl
              · cases ho
            · split at ho
              · cases ho
              · split at ho
                · cases ho
                · rename_i ps hps
                  cases hth : eclvThresholds f rows with
                  | nil =>
                    rw [hth] at hps
                    cases hps
                    cases ho
                    rfl
                  | cons x xs =>
                    rw [hth, List.mapM_cons] at hps
                    simp [eclvStat, bind, Except.bind] at hps
        cases h
        rw [List.flatten_eq_nil_iff]
        intro o ho
        obtain ⟨p, -, hp⟩ := forall₂_right_mem (mapM_except_mem _ hparts) ho
        exact key p o hp

/-! ### Examples -/

/-- Three tables of counts of two models. -/
def eclvExample : Frame :=
  { cols := ["model", "total", "fy_oy", "fy_on", "fn_oy", "fn_on"]
    rows := [[.str "A", .num 10 "10", .num 2 "2", .num 1 "1", .num 1 "1", .num 6 "6"],
             [.str "B", .num 10 "10", .num 3 "3", .num 2 "2", .num 1 "1", .num 4 "4"],
             [.str "A", .num 10 "10", .num 1 "1", .num 1 "1", .num 0 "0", .num 8 "8"]] }

/-- The summed counts of the models; there are no data of a model "C". -/
def eclvCounts (p : List String) : Counts :=
  if p = ["A"] then ⟨3, 2, 1, 14⟩ else if p = ["B"] then ⟨3, 2, 1, 4⟩ else ⟨0, 0, 0, 0⟩

theorem eclvCounts_eq : eclvCounts ["A"] = ⟨3, 2, 1, 14⟩ ∧ eclvCounts ["B"] = ⟨3, 2, 1, 4⟩ ∧
    eclvCounts ["C"] = ⟨0, 0, 0, 0⟩ := ⟨rfl, rfl, rfl⟩

theorem eclvExample_wf : FrameWF eclvExample := by unfold FrameWF; decide

theorem eclvExample_rows (v : String) (rows : List (List Val)) (h : eclvRows eclvExample [("model", v)] = .ok rows) :
    seriesRows eclvExample [("model", v)] = rows := by
  have := (eclvRows_eq eclvExample_wf (request := [("model", v)]) ⟨("model", v), by simp, by simp [eclvExample]⟩).symm.trans h
  exact Except.ok.inj this

theorem eclvExample_counts : ∀ p ∈ [["A"], ["B"], ["C"]],
    CountsOf eclvExample (seriesRows eclvExample (["model"].zip p)) (eclvCounts p) := by
  intro p hp
  simp only [List.mem_cons, List.not_mem_nil, or_false] at hp
  have cell : ∀ (r : List Val) (name : String) (i : ℕ) (x : ℚ) (t : String), eclvExample.idx? name = some i →
      r[i]? = some (.num x t) → ∃ t, HasCell eclvExample r name (.num x t) :=
    fun r name i x t h1 h2 => ⟨t, (hasCell_iff h1 _).mpr h2⟩
  rcases hp with rfl | rfl | rfl
  · rw [List.zip_cons_cons, List.zip_nil_right, eclvExample_rows "A"
      [[.str "A", .num 10 "10", .num 2 "2", .num 1 "1", .num 1 "1", .num 6 "6"],
       [.str "A", .num 10 "10", .num 1 "1", .num 1 "1", .num 0 "0", .num 8 "8"]] (by decide +kernel)]
    refine ⟨[10, 10], [2, 1], [1, 1], [1, 0], [6, 8], ?_, ?_, ?_, ?_, ?_, by decide +kernel, ?_⟩
    · exact .cons (cell _ _ 1 _ _ (by decide) rfl) (.cons (cell _ _ 1 _ _ (by decide) rfl) .nil)
    · exact .cons (cell _ _ 2 _ _ (by decide) rfl) (.cons (cell _ _ 2 _ _ (by decide) rfl) .nil)
    · exact .cons (cell _ _ 3 _ _ (by decide) rfl) (.cons (cell _ _ 3 _ _ (by decide) rfl) .nil)
    · exact .cons (cell _ _ 4 _ _ (by decide) rfl) (.cons (cell _ _ 4 _ _ (by decide) rfl) .nil)
    · exact .cons (cell _ _ 5 _ _ (by decide) rfl) (.cons (cell _ _ 5 _ _ (by decide) rfl) .nil)
    · norm_num [eclvCounts_eq]
  · rw [List.zip_cons_cons, List.zip_nil_right, eclvExample_rows "B"
      [[.str "B", .num 10 "10", .num 3 "3", .num 2 "2", .num 1 "1", .num 4 "4"]] (by decide +kernel)]
    refine ⟨[10], [3], [2], [1], [4], ?_, ?_, ?_, ?_, ?_, by decide +kernel, ?_⟩
    · exact .cons (cell _ _ 1 _ _ (by decide) rfl) .nil
    · exact .cons (cell _ _ 2 _ _ (by decide) rfl) .nil
    · exact .cons (cell _ _ 3 _ _ (by decide) rfl) .nil
    · exact .cons (cell _ _ 4 _ _ (by decide) rfl) .nil
    · exact .cons (cell _ _ 5 _ _ (by decide) rfl) .nil
    · norm_num [eclvCounts_eq]
  · rw [List.zip_cons_cons, List.zip_nil_right, eclvExample_rows "C" [] (by decide +kernel)]
    refine ⟨[], [], [], [], [], .nil, .nil, .nil, .nil, .nil, by simp, ?_⟩
    norm_num [eclvCounts_eq]

theorem quarters : IsSteps (1 / 4) [1 / 4, 1 / 2, 3 / 4] := by
  refine ⟨by decide +kernel, ?_⟩
  intro x
  simp only [List.mem_cons, List.not_mem_nil, or_false]
  constructor
  · rintro (rfl | rfl | rfl)
    · exact ⟨by norm_num, by norm_num, 1, by norm_num⟩
    · exact ⟨by norm_num, by norm_num, 2, by norm_num⟩
    · exact ⟨by norm_num, by norm_num, 3, by norm_num⟩
  · rintro ⟨h0, h1, k, rfl⟩
    have hk : k < 4 := by
      have : (k : ℚ) < 4 := by linarith
      exact_mod_cast this
    interval_cases k <;> simp at h0 ⊢ <;> norm_num

/-- C115 (example): the curves of two models. -/
theorem eclvExample_run : aggEclv false "ctc" (1 / 4) [("model", ["A", "B"])] eclvExample = .ok
    [⟨["A"], 0, 1 / 4, 7 / 12, 2⟩, ⟨["A"], 0, 1 / 2, 1 / 4, 2⟩, ⟨["A"], 0, 3 / 4, -3 / 4, 2⟩,
     ⟨["B"], 0, 1 / 4, 1 / 6, 1⟩, ⟨["B"], 0, 1 / 2, 1 / 4, 1⟩, ⟨["B"], 0, 3 / 4, -3 / 4, 1⟩] := by
  have h := (C115_curves_partial false (step := 1 / 4) (by norm_num) quarters eclvExample_wf (by decide) (by decide)
    [("model", ["A", "B"])] ⟨("model", ["A", "B"]), by simp, by decide⟩ eclvCounts
    (fun p hp => eclvExample_counts p (by
      simp [product] at hp
      rcases hp with rfl | rfl <;> simp))).1 (by
      intro p hp
      simp [product] at hp
      rcases hp with rfl | rfl <;> norm_num [eclvCounts_eq, Counts.both])
  rw [h]
  have hA := eclvExample_rows "A"
      [[.str "A", .num 10 "10", .num 2 "2", .num 1 "1", .num 1 "1", .num 6 "6"],
       [.str "A", .num 10 "10", .num 1 "1", .num 1 "1", .num 0 "0", .num 8 "8"]] (by decide +kernel)
  have hB := eclvExample_rows "B"
      [[.str "B", .num 10 "10", .num 3 "3", .num 2 "2", .num 1 "1", .num 4 "4"]] (by decide +kernel)
  simp [product, hA, hB, eclvCounts_eq, Counts.value, economicValueOf]
  norm_num [expenseClimate, expenseForecast, expensePerfect]

/-- C115 (counterexample): asking for a third model without data makes the run fail; the two models with data, whose curves
the run without it gives (`eclvExample_run`), get none. -/
theorem C115_empty_series_counterexample :
    (∃ out, aggEclv false "ctc" (1 / 4) [("model", ["A", "B"])] eclvExample = .ok out ∧ out ≠ []) ∧
    aggEclv false "ctc" (1 / 4) [("model", ["A", "B", "C"])] eclvExample = .error .typeError := by
  refine ⟨⟨_, eclvExample_run, by simp⟩, ?_⟩
  refine (C115_curves_partial false (step := 1 / 4) (by norm_num) quarters eclvExample_wf (by decide) (by decide)
    [("model", ["A", "B", "C"])] ⟨("model", ["A", "B", "C"]), by simp, by decide⟩ eclvCounts
    (fun p hp => eclvExample_counts p (by
      simp [product] at hp
      rcases hp with rfl | rfl | rfl <;> simp))).2 ⟨["C"], by simp [product], by norm_num [eclvCounts_eq, Counts.both]⟩

/-- C115 (example): without a series field among the columns the run fails. -/
example : aggEclv false "ctc" (1 / 4) [("vx_mask", ["FULL"])] eclvExample = .error .keyError :=
  C115_no_field false "ctc" (by norm_num) (by simp) (by decide) (by decide) _ (by simp) (by
    intro q hq
    simp only [List.mem_singleton] at hq
    subst hq
    decide)

/-- C115 (example): a probabilistic run that is not an error (its input is empty). -/
example : ([] : List EclvOut) = [] :=
  C115_no_probabilistic_curve (step := 1 / 4) (series := [("model", ["A"])]) (f := { cols := ["model"], rows := [] }) (by
    obtain ⟨l, hl, -⟩ := clSteps_spec (step := 1 / 4) (by norm_num)
    unfold aggEclv
    rw [hl]
    rfl)

end Metcalcpy.Props
