/-
C172  The value of a DIFF_SIG curve is the signed confidence of the bootstrapped difference (partial).
C173  Swapping the two series changes only the sign of DIFF_SIG (partial).
-/
import Verif.Model.DiffSig
import Verif.Props.C33_Derived
import Verif.Props.C105_DerivedBoot

namespace Metcalcpy.Spec

/-- The share of the numbers whose distance from their mean is at most the size of `v`. -/
def confidenceShare (xs : List ℚ) (v : ℚ) : ℚ := (xs.countP (fun x => decide (|x - xs.sum / xs.length| ≤ |v|)) : ℚ) / xs.length

/-- Difference of two values, either of which may be missing. -/
def diffCell (x y : Option ℚ) : Option ℚ := x.bind (fun a => y.map (fun b => a - b))

/-- A value as the code holds it. -/
def asPyNum : Option ℚ → PyNum
  | some q => .num q
  | none => .none

end Metcalcpy.Spec

namespace Metcalcpy.Props
open Metcalcpy Spec

theorem sigShare_eq (xs : List ℚ) (v : ℚ) : sigShare xs v = confidenceShare xs v := by
  unfold sigShare confidenceShare
  rw [List.countP_eq_length_filter]

theorem allNumbers_cells (l : List (Option ℚ)) : allNumbers (l.map asPyNum) = some (l.filterMap id) := by
  induction l with
  | nil => rfl
  | cons a l ih =>
    cases a with
    | none => exact ih
    | some q =>
      show (allNumbers (l.map asPyNum)).map (q :: ·) = some (q :: l.filterMap id)
      rw [ih]; rfl

theorem filter_cells (l : List (Option ℚ)) :
    (l.map asPyNum).filter (fun x => decide (x ≠ .none)) ≠ [] ↔ l.filterMap id ≠ [] := by
  induction l with
  | nil => simp
  | cons a l ih =>
    cases a with
    | none => exact ih
    | some q =>
      constructor
      · intro _ h
        have : (q :: l.filterMap id) = [] := h
        simp at this
      · intro _ h
        rw [List.map_cons, List.filter_cons_of_pos (by simp [asPyNum])] at h
        simp at h

/-- The value of a DIFF_SIG curve from numbers. -/
theorem diffSig_cells (stat : String) (reps : List (Option ℚ)) (v v₁ v₂ : Option ℚ) (hv : v = diffCell v₁ v₂) :
    (v₁ = none ∨ v₂ = none ∨ reps.filterMap id = [] → diffSig stat (reps.map asPyNum) (asPyNum v) (asPyNum v₁) (asPyNum v₂) = .ok .none) ∧
    ∀ a b, v₁ = some a → v₂ = some b → reps.filterMap id ≠ [] →
      (PerfectScore (upper stat) none →
        diffSig stat (reps.map asPyNum) (asPyNum v) (asPyNum v₁) (asPyNum v₂) = .ok .none) ∧
      ∀ best, PerfectScore (upper stat) (some best) →
        diffSig stat (reps.map asPyNum) (asPyNum v) (asPyNum v₁) (asPyNum v₂) =
          .ok (.num (if |a - best| > |b - best| then -confidenceShare (reps.filterMap id) (a - b)
            else confidenceShare (reps.filterMap id) (a - b))) := by
  constructor
  · intro h
    unfold diffSig
    rw [if_neg]
    rintro ⟨h1, h2⟩
    rw [filter_cells] at h1
    rcases h with rfl | rfl | h
    · rw [hv] at h2; exact h2 rfl
    · rw [hv] at h2; cases v₁ <;> exact h2 rfl
    · exact h1 h
  · rintro a b rfl rfl hr
    have e : v = some (a - b) := hv
    subst e
    have hd : diffSig stat (reps.map asPyNum) (asPyNum (some (a - b))) (asPyNum (some a)) (asPyNum (some b)) =
        sigAdjust stat (.num a) (.num b) (confidenceShare (reps.filterMap id) (a - b)) := by
      unfold diffSig
      rw [if_pos ⟨(filter_cells reps).mpr hr, by simp [asPyNum]⟩]
      unfold sigPval
      rw [allNumbers_cells]
      simp only [asPyNum]
      rw [sigShare_eq]
    rw [hd]
    have hs := C34_sign a b (confidenceShare (reps.filterMap id) (a - b)) stat
    constructor
    · intro hp
      have := hs.1 hp
      unfold sigAdjust
      split
      · rfl
      · simp only [this]
    · intro best hp
      have := hs.2 best hp
      unfold sigAdjust
      split
      · rename_i hna
        unfold perfectScoreAdjustment at this
        rw [if_pos hna] at this
        simp at this
      · simp only [this]
        simp

/-- One evaluation of the difference. -/
theorem calcStatsDerived_diff {statOf : String → List (List Val) → Except PyErr PyNum}
    {etb : List PyNum → List PyNum → PyNum} {f : Frame} {s₁ s₂ : String} {rows xs ys : List (List Val)}
    {g : String → List (List Val) → Option ℚ} (hg₁ : statOf (lower s₁) xs = .ok (asPyNum (g (lower s₁) xs)))
    (hg₂ : statOf (lower s₂) ys = .ok (asPyNum (g (lower s₂) ys))) (hc : "stat_name" ∈ f.cols) (hne : rows ≠ []) (hx : rows.map firstHalf = xs)
    (hy : rows.map secondHalf = ys) (hl : ∀ r ∈ rows, r.getLast? = some (.str "DIFF_SIG"))
    (h₁ : ∀ r ∈ xs, cellAt r (f.cols.idxOf "stat_name") = .str s₁)
    (h₂ : ∀ r ∈ ys, cellAt r (f.cols.idxOf "stat_name") = .str s₂) :
    calcStatsDerived statOf etb f rows = .ok (asPyNum (diffCell (g (lower s₁) xs) (g (lower s₂) ys))) := by
  have e1 := rowStat_ok hc (by rw [← hx]; simpa using hne) h₁
  have e2 := rowStat_ok hc (by rw [← hy]; simpa using hne) h₂
  unfold calcStatsDerived
  rw [hx, hy]
  simp only [e1, e2, bind, Except.bind, hg₁, hg₂]
  cases rows with
  | nil => exact absurd rfl hne
  | cons r rows =>
    simp only [hl r (by simp)]
    generalize g (lower s₁) xs = x
    generalize g (lower s₂) ys = y
    cases x <;> cases y <;> simp [asPyNum, diffCell, calcDerivedCurveValue, PyNum.arith]

/-- C172 (partial): for a statistic that is never NaN and never raises, and series of the same cases, the value of a DIFF_SIG
curve is missing exactly if the statistic of a series or all replicates are, or the statistic has no perfect score; otherwise its size
is the share of replicates of the difference that are at most as far from their mean as the difference is from zero, and it is
negative exactly if the first series is farther from the perfect score.  In every replicate both series are evaluated
at the same positions of row lists that agree case by case. -/
theorem C172_value_partial (statOf : String → List (List Val) → Except PyErr PyNum)
    (etb : List PyNum → List PyNum → PyNum) (s : BootSettings) (f : Frame) (stat : String)
    (rows₁ rows₂ : List (List Val)) (ids : List (List ℕ)) (s₁ s₂ : String) (k : ℕ) (v₁ v₂ : PyNum) (res : BootResult) (x : PyNum)
    (g : String → List (List Val) → Option ℚ)
    (hg₁ : ∀ zs, zs ≠ [] → (∀ r ∈ zs, r ∈ rows₁) → statOf (lower s₁) zs = .ok (asPyNum (g (lower s₁) zs)))
    (hg₂ : ∀ zs, zs ≠ [] → (∀ r ∈ zs, r ∈ rows₂) → statOf (lower s₂) zs = .ok (asPyNum (g (lower s₂) zs)))
    (hc : "stat_name" ∈ f.cols) (hne : rows₁ ≠ [])
    (hw : ∀ r ∈ rows₁ ++ rows₂, r.length = f.cols.length)
    (hs₁ : ∀ r ∈ rows₁, cellAt r (f.cols.idxOf "stat_name") = .str s₁)
    (hs₂ : ∀ r ∈ rows₂, cellAt r (f.cols.idxOf "stat_name") = .str s₂)
    (hcases : (rows₁.map (caseOf f)).Perm (rows₂.map (caseOf f)))
    (hids : IndexMatrix rows₁.length k ids)
    (hv₁ : ∀ a, sortData f rows₁ = .ok a → statOf (lower s₁) a = .ok v₁)
    (hv₂ : ∀ a, sortData f rows₂ = .ok a → statOf (lower s₂) a = .ok v₂)
    (h : derivedSig statOf etb s f stat rows₁ rows₂ v₁ v₂ ids = .ok (res, x)) :
    ∃ a₁ a₂, a₁.Perm rows₁ ∧ a₂.Perm rows₂ ∧ a₁.map (caseOf f) = a₂.map (caseOf f) ∧
      ∃ reps : List ℚ, reps = ids.filterMap (fun row =>
          diffCell (g (lower s₁) (pick a₁ (positionsUsed (if s.cbb then Nat.sqrt rows₁.length else 1) row)))
            (g (lower s₂) (pick a₂ (positionsUsed (if s.cbb then Nat.sqrt rows₁.length else 1) row)))) ∧
        confidenceInterval (ids.map (fun row =>
          diffCell (g (lower s₁) (pick a₁ (positionsUsed (if s.cbb then Nat.sqrt rows₁.length else 1) row)))
            (g (lower s₂) (pick a₂ (positionsUsed (if s.cbb then Nat.sqrt rows₁.length else 1) row)))))
          (diffCell (g (lower s₁) a₁) (g (lower s₂) a₂)) s.alpha s.method = .ok res ∧
        (g (lower s₁) a₁ = none ∨ g (lower s₂) a₂ = none ∨ reps = [] → x = .none) ∧
        ∀ a b, g (lower s₁) a₁ = some a → g (lower s₂) a₂ = some b → reps ≠ [] →
          (PerfectScore (upper stat) none → x = .none) ∧
          ∀ best, PerfectScore (upper stat) (some best) →
            x = .num (if |a - best| > |b - best| then -confidenceShare reps (a - b) else confidenceShare reps (a - b)) := by
  unfold derivedSig at h
  simp only [bind, Except.bind] at h
  cases h1 : sortData f rows₁ with
  | error e => rw [h1] at h; simp at h
  | ok a₁ =>
    rw [h1] at h
    cases h2 : sortData f rows₂ with
    | error e => rw [h2] at h; simp at h
    | ok a₂ =>
      rw [h2] at h
      simp only at h
      cases h3 : joinSeries "DIFF_SIG" a₁ a₂ with
      | error e => rw [h3] at h; simp at h
      | ok both =>
        rw [h3] at h
        simp only at h
        have p₁ := (sortData_spec h1).1
        have p₂ := (sortData_spec h2).1
        refine ⟨a₁, a₂, p₁, p₂, sorted_cases h1 h2 hcases, ?_⟩
        obtain ⟨hlen, hf, hs, hlast⟩ := join_halves h3 (w := f.cols.length)
          (fun r hr => hw r (List.mem_append_left _ (p₁.mem_iff.mp hr)))
          (fun r hr => hw r (List.mem_append_right _ (p₂.mem_iff.mp hr)))
        have hbl : both.length = rows₁.length := by
          rw [← p₁.length_eq, ← hf, List.length_map]
        have hm : IndexMatrix both.length k ids := by rw [hbl]; exact hids
        have hpos : ∀ row ∈ ids, ∀ L, (positionsUsed L row).length = rows₁.length ∧
            ∀ i ∈ positionsUsed L row, i < rows₁.length := fun row hr L =>
          ⟨by rw [positions_length, (hids.2 row hr).1], positions_lt (hids.2 row hr).1 (hids.2 row hr).2⟩
        have hn0 : rows₁.length ≠ 0 := by simpa using hne
        rw [generate_pick both _ k ids hm, hbl] at h
        have ev : ∀ rows xs ys, rows ≠ [] → (∀ r ∈ rows, r ∈ both) → (∀ r ∈ xs, r ∈ a₁) → (∀ r ∈ ys, r ∈ a₂) →
            rows.map firstHalf = xs → rows.map secondHalf = ys →
            calcStatsDerived statOf etb f rows = .ok (asPyNum (diffCell (g (lower s₁) xs) (g (lower s₂) ys))) := by
          intro rows xs ys n m m₁ m₂ e1 e2
          have n₁ : xs ≠ [] := by rw [← e1]; simpa using n
          have n₂ : ys ≠ [] := by rw [← e2]; simpa using n
          exact calcStatsDerived_diff (hg₁ xs n₁ (fun r hr => p₁.mem_iff.mp (m₁ r hr)))
            (hg₂ ys n₂ (fun r hr => p₂.mem_iff.mp (m₂ r hr))) hc n e1 e2 (fun r hr => hlast r (m r hr))
            (fun r hr => hs₁ r (p₁.mem_iff.mp (m₁ r hr))) (fun r hr => hs₂ r (p₂.mem_iff.mp (m₂ r hr)))
        have hbne : both ≠ [] := by
          intro e; rw [e] at hbl; simp at hbl; omega
        have evo := ev both a₁ a₂ hbne (fun _ h => h) (fun _ h => h) (fun _ h => h) hf hs
        have evp : ∀ row ∈ ids, ∀ L, _ := fun row hr L => ev (pick both (positionsUsed L row))
          (pick a₁ (positionsUsed L row)) (pick a₂ (positionsUsed L row))
          (by
            intro e
            have hl : (pick both (positionsUsed L row)).length = rows₁.length := by
              obtain ⟨i1, i2⟩ := hpos row hr L
              obtain ⟨xs, t1, t2, -⟩ := takeIdx_ok both (positionsUsed L row) (by rw [hbl]; exact i2)
              rw [takeIdx_pick both _ (by rw [hbl]; exact i2)] at t1
              simp only [Except.ok.injEq] at t1
              rw [t1, t2, i1]
            rw [e] at hl; simp at hl; omega)
          (fun r h => pick_mem h) (fun r h => pick_mem h) (fun r h => pick_mem h)
          (by rw [pick_map, hf]) (by rw [pick_map, hs])
        unfold blockLength at h
        generalize (if s.cbb = true then rows₁.length.sqrt else 1) = L at h ⊢
        have hd : (ids.map (fun row => pick both (positionsUsed L row))).mapM (calcStatsDerived statOf etb f) =
            .ok ((ids.map (fun row => diffCell (g (lower s₁) (pick a₁ (positionsUsed L row)))
              (g (lower s₂) (pick a₂ (positionsUsed L row))))).map asPyNum) := by
          rw [List.map_map]
          have : ∀ ids' : List (List ℕ), (∀ r ∈ ids', r ∈ ids) →
              (ids'.map (fun row => pick both (positionsUsed L row))).mapM (calcStatsDerived statOf etb f) =
              .ok (ids'.map (asPyNum ∘ fun row => diffCell (g (lower s₁) (pick a₁ (positionsUsed L row)))
                (g (lower s₂) (pick a₂ (positionsUsed L row))))) := by
            intro ids'
            induction ids' with
            | nil => intro _; rfl
            | cons r ids' ih =>
              intro hr
              rw [List.map_cons, List.mapM_cons, evp r (hr r (by simp)) L, ih (fun q hq => hr q (by simp [hq]))]
              rfl
          exact this ids (fun _ h => h)
        simp only [evo, hd] at h
        have e1 := hv₁ a₁ h1
        have e2 := hv₂ a₂ h2
        have n₁ : a₁ ≠ [] := fun h => hne (by simpa [h] using p₁.symm)
        have n₂ : a₂ ≠ [] := fun h => n₁ (List.eq_nil_of_length_eq_zero (by rw [hlen, h]; rfl))
        rw [hg₁ a₁ n₁ (fun r hr => p₁.mem_iff.mp hr)] at e1
        rw [hg₂ a₂ n₂ (fun r hr => p₂.mem_iff.mp hr)] at e2
        have e1' := (Except.ok.inj e1).symm
        have e2' := (Except.ok.inj e2).symm
        subst e1' e2'
        generalize hci : confidenceInterval _ _ s.alpha s.method = ci at h
        cases ci with
        | error e => cases e <;> simp at h
        | ok ci =>
          simp only at h
          obtain ⟨r1, r2⟩ := diffSig_cells stat (ids.map (fun row => diffCell (g (lower s₁) (pick a₁ (positionsUsed L row)))
              (g (lower s₂) (pick a₂ (positionsUsed L row))))) _ (g (lower s₁) a₁) (g (lower s₂) a₂) rfl
          have hfm : (ids.map (fun row => diffCell (g (lower s₁) (pick a₁ (positionsUsed L row)))
              (g (lower s₂) (pick a₂ (positionsUsed L row))))).filterMap id =
              ids.filterMap (fun row => diffCell (g (lower s₁) (pick a₁ (positionsUsed L row)))
              (g (lower s₂) (pick a₂ (positionsUsed L row)))) := by rw [List.filterMap_map]; rfl
          rw [hfm] at r1 r2
          have hx : ∀ y, diffSig stat ((ids.map (fun row => diffCell (g (lower s₁) (pick a₁ (positionsUsed L row)))
              (g (lower s₂) (pick a₂ (positionsUsed L row))))).map asPyNum)
              (asPyNum (diffCell (g (lower s₁) a₁) (g (lower s₂) a₂))) (asPyNum (g (lower s₁) a₁)) (asPyNum (g (lower s₂) a₂)) =
              .ok y → x = y := by
            intro y hy
            rw [hy] at h
            simp only [Except.ok.injEq, Prod.mk.injEq] at h
            exact h.2.symm
          have hcell : ∀ w : Option ℚ, (asPyNum w).cell = w := by intro w; cases w <;> rfl
          have hcells : ∀ l : List (Option ℚ), (l.map asPyNum).map PyNum.cell = l := by
            intro l
            rw [List.map_map]
            conv_rhs => rw [← List.map_id l]
            exact List.map_congr_left (fun w _ => hcell w)
          rw [hcells, hcell] at hci
          have hres : ci = res := by
            split at h
            · simp at h
            · simp only [Except.ok.injEq, Prod.mk.injEq] at h
              exact h.1
          rw [hres] at hci
          refine ⟨_, rfl, hci, fun hn => hx _ (r1 hn), fun a b ha hb hr => ⟨fun hp => hx _ ((r2 a b ha hb hr).1 hp),
            fun best hp => hx _ ((r2 a b ha hb hr).2 best hp)⟩⟩

/-- The hypotheses of `C172_value_partial` hold for the series of C105, and the value is the share of the three replicates
-1, -6 and -7/2, whose mean is -7/2, that are at most 7/2 from it; the second series is better. -/
example : derivedSig bootMean (fun _ _ => .none) bootSet bootFrame "me" [bootRow "t1" 1, bootRow "t2" 4]
    [bootRow "t2" 10, bootRow "t1" 2] (.num (5 / 2)) (.num 6) [[0, 0], [1, 1], [0, 1]] =
    .ok (⟨some (-19 / 4), some (-7 / 2), some (-9 / 4)⟩, .num 1) := by decide +kernel

/-- C172: the value lies between -1 and 1, is zero only without replicates near their mean, and grows with the difference. -/
theorem C172_bounds (xs : List ℚ) (v w : ℚ) (hx : xs ≠ []) (h : |v| ≤ |w|) :
    0 ≤ confidenceShare xs v ∧ confidenceShare xs v ≤ confidenceShare xs w ∧ confidenceShare xs w ≤ 1 := by
  have hl : (0 : ℚ) < xs.length := by exact_mod_cast List.length_pos_of_ne_nil hx
  unfold confidenceShare
  refine ⟨by positivity, ?_, ?_⟩
  · apply div_le_div_of_nonneg_right _ hl.le
    have := List.countP_mono_left (l := xs) (p := fun x => decide (|x - xs.sum / xs.length| ≤ |v|))
      (q := fun x => decide (|x - xs.sum / xs.length| ≤ |w|)) (fun x _ hx => by simp at hx ⊢; exact hx.trans h)
    exact_mod_cast this
  · rw [div_le_one hl]
    exact_mod_cast List.countP_le_length

theorem confidenceShare_neg (xs : List ℚ) (v : ℚ) : confidenceShare (xs.map (fun x => -x)) (-v) = confidenceShare xs v := by
  have hs : (xs.map (fun x => -x)).sum = -xs.sum := by
    induction xs with
    | nil => simp
    | cons a l ih => simp [ih]; ring
  unfold confidenceShare
  rw [List.length_map, hs, List.countP_map]
  congr 2
  apply List.countP_congr
  intro x _
  simp only [Function.comp_apply, decide_eq_true_eq, abs_neg]
  rw [show -x - -xs.sum / xs.length = -(x - xs.sum / xs.length) by ring, abs_neg]

/-- C173 (partial): with the series swapped all differences change their signs; then the value changes its sign, unless both series are
equally far from the perfect score. -/
theorem C173_swap_partial (stat : String) (reps : List (Option ℚ)) (a b best : ℚ) (hp : PerfectScore (upper stat) (some best))
    (hr : reps.filterMap id ≠ []) (hab : |a - best| ≠ |b - best|) :
    ∃ q, diffSig stat (reps.map asPyNum) (.num (a - b)) (.num a) (.num b) = .ok (.num q) ∧
      diffSig stat ((reps.map (fun z => z.map (fun x => -x))).map asPyNum) (.num (b - a)) (.num b) (.num a) = .ok (.num (-q)) := by
  have hm : (reps.map (fun z => z.map (fun x => -x))).filterMap id = (reps.filterMap id).map (fun x => -x) := by
    rw [List.filterMap_map, List.map_filterMap]
    congr 1
  have hr' : (reps.map (fun z => z.map (fun x => -x))).filterMap id ≠ [] := by rw [hm]; simpa using hr
  have h1 := ((diffSig_cells stat reps (some (a - b)) (some a) (some b) rfl).2 a b rfl rfl hr).2 best hp
  have h2 := ((diffSig_cells stat _ (some (b - a)) (some b) (some a) rfl).2 b a rfl rfl hr').2 best hp
  simp only [asPyNum] at h1 h2
  refine ⟨_, h1, ?_⟩
  rw [hm, show b - a = -(a - b) by ring, confidenceShare_neg] at h2
  rw [show b - a = -(a - b) by ring, h2]
  rcases lt_or_gt_of_ne hab with h | h
  · rw [if_pos h, if_neg (not_lt.mpr h.le)]
  · rw [if_pos h, if_neg (not_lt.mpr h.le), neg_neg]

/-- C173: series equally far from the perfect score, on different sides of it: swapping them changes nothing, and the first one
always wins. -/
theorem C173_tie_counterexample (stat : String) (reps : List (Option ℚ)) (a b best : ℚ)
    (hp : PerfectScore (upper stat) (some best)) (hr : reps.filterMap id ≠ []) (hab : |a - best| = |b - best|) :
    ∃ q, 0 ≤ q ∧ diffSig stat (reps.map asPyNum) (.num (a - b)) (.num a) (.num b) = .ok (.num q) ∧
      diffSig stat ((reps.map (fun z => z.map (fun x => -x))).map asPyNum) (.num (b - a)) (.num b) (.num a) = .ok (.num q) := by
  have hm : (reps.map (fun z => z.map (fun x => -x))).filterMap id = (reps.filterMap id).map (fun x => -x) := by
    rw [List.filterMap_map, List.map_filterMap]
    congr 1
  have hr' : (reps.map (fun z => z.map (fun x => -x))).filterMap id ≠ [] := by rw [hm]; simpa using hr
  have h1 := ((diffSig_cells stat reps (some (a - b)) (some a) (some b) rfl).2 a b rfl rfl hr).2 best hp
  have h2 := ((diffSig_cells stat _ (some (b - a)) (some b) (some a) rfl).2 b a rfl rfl hr').2 best hp
  simp only [asPyNum] at h1 h2
  rw [if_neg (by rw [hab]; exact lt_irrefl _)] at h1
  rw [hm, show b - a = -(a - b) by ring, confidenceShare_neg, if_neg (by rw [hab]; exact lt_irrefl _)] at h2
  refine ⟨_, ?_, h1, ?_⟩
  · exact (C172_bounds _ _ _ hr le_rfl).1
  · rw [show b - a = -(a - b) by ring, h2]

/-- Such series: mean errors of 2 and -2. -/
example : diffSig "ME" [.num 3, .num 5] (.num 4) (.num 2) (.num (-2)) = .ok (.num 1) ∧
    diffSig "ME" [.num (-3), .num (-5)] (.num (-4)) (.num (-2)) (.num 2) = .ok (.num 1) := by decide +kernel

theorem allNumbers_nan {dist : List PyNum} (h : PyNum.nan ∈ dist) : allNumbers dist = none := by
  induction dist with
  | nil => simp at h
  | cons a l ih =>
    cases a with
    | nan => rfl
    | none =>
      have : PyNum.nan ∈ l := by simpa using h
      exact ih this
    | num q =>
      have : PyNum.nan ∈ l := by simpa using h
      show (allNumbers l).map (q :: ·) = none
      rw [ih this]; rfl

/-- C172: a single replicate that is not a number makes the value zero, whatever the others are. -/
theorem C172_nan_counterexample (stat : String) (dist : List PyNum) (a b best : ℚ) (hp : PerfectScore (upper stat) (some best))
    (h : PyNum.nan ∈ dist) : diffSig stat dist (.num (a - b)) (.num a) (.num b) = .ok (.num 0) := by
  unfold diffSig
  rw [if_pos ⟨List.ne_nil_of_mem (List.mem_filter.mpr ⟨h, by simp⟩), by simp⟩]
  unfold sigPval
  rw [allNumbers_nan h]
  have := (C34_sign a b 0 stat).2 best hp
  unfold sigAdjust
  split
  · rename_i hna
    unfold perfectScoreAdjustment at this
    rw [if_pos hna] at this
    simp at this
  · simp only [this]
    simp

/-- C172: with a statistic that does not exist, where other derived curves return an empty result, DIFF_SIG raises a TypeError. -/
theorem C172_unknown_counterexample : ∃ (statOf : String → List (List Val) → Except PyErr PyNum) (f : Frame)
    (rows₁ rows₂ : List (List Val)) (ids : List (List ℕ)),
    derivedBoot statOf (fun _ _ => .none) bootSet f "DIFF" rows₁ rows₂ ids = .ok ⟨none, none, none⟩ ∧
    derivedSig statOf (fun _ _ => .none) bootSet f "me" rows₁ rows₂ .none .none ids = .error .typeError :=
  ⟨fun _ _ => .error .keyError, bootFrame, [bootRow "t1" 1, bootRow "t2" 4], [bootRow "t2" 10, bootRow "t1" 2],
    [[0, 0], [1, 1], [0, 1]], by decide +kernel, by decide +kernel⟩

end Metcalcpy.Props
