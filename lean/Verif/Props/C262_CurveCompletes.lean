/-
C262 When a run with bootstrapping and derived curves completes.
-/
import Verif.Props.C261_CurveLimits
import Verif.Props.C262_BootCompletes
import Verif.Props.C110_ScorecardRun
import Verif.Props.C52_DerivedValidate

namespace Metcalcpy.Props

open Metcalcpy Spec

/-! ### The check of the cases -/

theorem splitColon_size (cs : List Char) : (splitColon cs).length = cs.count ':' + 1 := by
  induction cs with
  | nil => rfl
  | cons c cs ih =>
    unfold splitColon
    split
    · next h => rw [h] at ih; simp at ih
    · next w ws h =>
      rw [h] at ih
      by_cases hc : c = ':'
      · subst hc
        simp at ih ⊢
        omega
      · rw [List.count_cons_of_ne hc, if_neg (by simpa using hc)]
        simpa using ih

theorem splitColon_one (cs : List Char) (h : ':' ∉ cs) : (splitColon cs).length = 1 := by
  rw [splitColon_size, List.count_eq_zero_of_not_mem h]

theorem splitColon_two (cs : List Char) (h : ':' ∈ cs) : 2 ≤ (splitColon cs).length := by
  rw [splitColon_size]
  have := List.count_pos_iff.mpr h
  omega

theorem numDiff_one {cs : List String} (h : ∀ c ∈ cs, ':' ∉ c.toList) : numDiffVals cs = 1 := by
  unfold numDiffVals
  have : (cs.map (fun c => if (splitColon c.toList).length > 1 then (splitColon c.toList).length else 0)).sum = 0 := by
    rw [List.sum_eq_zero]
    intro n hn
    obtain ⟨c, hc, rfl⟩ := List.mem_map.mp hn
    rw [if_neg (by rw [splitColon_one _ (h c hc)]; omega)]
  simp [this]

theorem numDiff_two {cs : List String} {c : String} (hc : c ∈ cs) (h : ':' ∈ c.toList) : 2 ≤ numDiffVals cs := by
  unfold numDiffVals
  have h2 := splitColon_two _ h
  have : 2 ≤ (cs.map (fun c => if (splitColon c.toList).length > 1 then (splitColon c.toList).length else 0)).sum := by
    refine le_trans ?_ (List.le_sum_of_mem (List.mem_map_of_mem hc))
    rw [if_pos (by omega)]
    exact h2
  simp only
  rw [if_neg (by omega)]
  exact this

/-- The check of a series whose lines have different times or leads. -/
theorem validate_distinct {f : Frame} (hl : "fcst_lead" ∈ f.cols) (hs : "stat_name" ∈ f.cols) (ht : timeColumn f ∈ f.cols)
    {rows : List (List Val)} (hn : (rows.map (caseOf f)).Nodup) (m : ℕ) :
    validateSeries f.cols rows m = if (rows.length : ℚ) / m ≠ rows.length then .error .nameError else .ok () := by
  have hv : validColumn f.cols = timeColumn f := sortTime_eq f
  obtain ⟨v, hv1, hv2⟩ := columnIndex_of_mem (f := f) ht
  obtain ⟨l, hl1, hl2⟩ := columnIndex_of_mem (f := f) hl
  obtain ⟨s, hs1, hs2⟩ := columnIndex_of_mem (f := f) hs
  unfold validateSeries
  rw [hv, hl1, hs1, hv1]
  simp only [bind, Except.bind]
  have hd : (rows.map (caseTuple v l s)).Nodup := by
    refine List.Nodup.of_map (fun t => (t.head?.elim none cellValue, (t.tail.head?).elim none cellValue)) ?_
    rw [List.map_map]
    have : ((fun t : List Val => (t.head?.elim none cellValue, (t.tail.head?).elim none cellValue)) ∘ caseTuple v l s) = caseOf f := by
      funext r
      have hc : ∀ w : Val, cellValue w.tupleCell = cellValue w := fun w => by cases w <;> rfl
      simp only [Function.comp_apply, caseTuple, List.head?_cons, List.tail_cons, Option.elim_some, hc, caseOf]
      rw [(idx?_eq_idxOf hv2).1, (idx?_eq_idxOf hl2).1]
    rw [this]
    exact hn
  rw [hd.dedup, List.length_map]

/-- Series whose lines have different times or leads pass the check if no text has a colon. -/
theorem check_distinct {f : Frame} (hl : "fcst_lead" ∈ f.cols) (hs : "stat_name" ∈ f.cols) (ht : timeColumn f ∈ f.cols)
    {op : String} {first second : List String} {rows₁ rows₂ : List (List Val)} (h₁ : (rows₁.map (caseOf f)).Nodup)
    (h₂ : (rows₂.map (caseOf f)).Nodup) (hf : ∀ c ∈ first, ':' ∉ c.toList) (hg : ∀ c ∈ second, ':' ∉ c.toList) :
    checkDerived f.cols op first second rows₁ rows₂ = .ok (!(rows₁.isEmpty || rows₂.isEmpty)) := by
  unfold checkDerived
  rw [validate_distinct hl hs ht h₁, validate_distinct hl hs ht h₂, numDiff_one hf, numDiff_one hg]
  cases rows₁.isEmpty || rows₂.isEmpty <;> by_cases h : op = "SINGLE" <;> simp [h, bind, Except.bind, pure, Except.pure]

/-- Such series are refused if one of the texts has a colon. -/
theorem check_colon {f : Frame} (hl : "fcst_lead" ∈ f.cols) (hs : "stat_name" ∈ f.cols) (ht : timeColumn f ∈ f.cols)
    {op : String} {first second : List String} {rows₁ rows₂ : List (List Val)} (h₁ : (rows₁.map (caseOf f)).Nodup)
    (hn₁ : rows₁ ≠ []) (hn₂ : rows₂ ≠ []) (hop : op ≠ "SINGLE") {c : String} (hc : c ∈ first) (hcol : ':' ∈ c.toList) :
    checkDerived f.cols op first second rows₁ rows₂ = .error .nameError := by
  have hm := numDiff_two hc hcol
  have hlen : 0 < (rows₁.length : ℚ) := by exact_mod_cast List.length_pos_iff.mpr hn₁
  have hne : (rows₁.length : ℚ) / (numDiffVals first : ℕ) ≠ rows₁.length := by
    have h2 : (2 : ℚ) ≤ (numDiffVals first : ℕ) := by exact_mod_cast hm
    rw [ne_eq, div_eq_iff (by linarith)]
    intro h
    nlinarith
  unfold checkDerived
  rw [validate_distinct hl hs ht h₁, if_pos hne]
  have e : (rows₁.isEmpty || rows₂.isEmpty) = false := by
    rw [List.isEmpty_eq_false_iff.mpr hn₁, List.isEmpty_eq_false_iff.mpr hn₂]; rfl
  simp [e, hop, bind, Except.bind]

/-! ### The points of a curve -/

/-- What a curve is computed from. -/
theorem curve_entry {c : AggConfig} {pre post extra : List String} {x y s a b op name : String}
    (C : CurveNamed c pre post extra x y s a b op name) : ∃ var, derivedEntry c [a, b, op] =
      .ok (name, ⟨pre ++ x :: post ++ extra ++ [s], pre ++ y :: post ++ extra ++ [s], op⟩,
        product ((derivedFields c var name (pre ++ x :: post ++ extra ++ [s])
          (pre ++ y :: post ++ extra ++ [s])).map Prod.snd)) ∧
      ∃ sp vals sq, c.series = sp ++ (var, vals) :: sq ∧
        List.Forall₂ (fun z (q : String × List String) => z ∈ q.2) pre sp ∧
        List.Forall₂ (fun z (q : String × List String) => z ∈ q.2) post sq ∧ x ∈ vals ∧ y ∈ vals := by
  obtain ⟨sp, var, vals, sq, hser, hpre, hpost, hx, hy, hxy⟩ := C.differs
  exact ⟨var, namedCurve_entry (c := c) ⟨hser, hpre, hpost, hx, hy, hxy, C.first, C.second, fun h => absurd rfl h, C.requested,
    C.named, C.only⟩ C.disjoint, sp, vals, sq, hser, hpre, hpost, hx, hy⟩

/-- The points of a curve: one for each independent value. -/
theorem curve_points {c : AggConfig} (hdist : FieldsDistinct c) (hkeys : (c.series.map Prod.fst).Nodup)
    (hne : c.indyVals ≠ []) {pre post extra : List String} {x y s a b op name : String}
    (C : CurveNamed c pre post extra x y s a b op name) {e : String × DerivedCurve × List (List String)}
    (he : derivedEntry c [a, b, op] = .ok e) {q : List String} (hq : q ∈ e.2.2) :
    ∃ i ∈ c.indyVals, q = pre ++ name :: post ++ [i, s] := by
  obtain ⟨var, hentry, sp, vals, sq, hser, hpre, hpost, hx, hy⟩ := curve_entry C
  rw [hentry] at he
  rw [← Except.ok.inj he] at hq
  simp only at hq
  have hs : s ∈ c.stats := C.first.2.2.1
  rw [mem_product, List.forall₂_map_right_iff, derivedFields_eq hdist, hser, List.map_append, List.map_cons, if_neg hne] at hq
  rw [hser, List.map_append, List.map_cons] at hkeys
  have hk := List.nodup_append.mp hkeys
  have hk2 := List.nodup_cons.mp hk.2.1
  obtain ⟨l₁, s', e1, h1, hs'⟩ := forall₂_snoc hq
  obtain ⟨l₂, i, e2, h2, hi⟩ := forall₂_snoc h1
  have hu := List.forall₂_take_append _ _ _ h2
  have ht := List.forall₂_drop_append _ _ _ h2
  have e3 := List.take_append_drop (sp.map (fun p => (p.1, if p.1 = var then [name] else p.2.filter
    (fun z => decide (z ∈ pre ++ x :: post ++ extra ++ [s]))))).length l₂
  generalize l₂.take (sp.map (fun p => (p.1, if p.1 = var then [name] else p.2.filter
    (fun z => decide (z ∈ pre ++ x :: post ++ extra ++ [s]))))).length = u at hu e3
  generalize l₂.drop (sp.map (fun p => (p.1, if p.1 = var then [name] else p.2.filter
    (fun z => decide (z ∈ pre ++ x :: post ++ extra ++ [s]))))).length = t at ht e3
  obtain ⟨n', w, hn', hw, rfl⟩ := List.forall₂_cons_right_iff.mp ht
  have en : n' = name := by simpa using hn'
  have es : s' = s := by
    have l₁ : (pre ++ x :: post ++ extra ++ [s]).getLastD "" = s := getLastD_snoc _ _ _
    have l₂ : (pre ++ y :: post ++ extra ++ [s]).getLastD "" = s := getLastD_snoc _ _ _
    rw [l₁, l₂, if_pos rfl] at hs'
    simpa using hs'
  have hi' : i ∈ c.indyVals := hi
  rw [List.forall₂_map_right_iff] at hu hw
  have hu' : List.Forall₂ (fun z (q : String × List String) => z ∈ q.2 ∧ z ∈ pre ++ x :: post ++ extra ++ [s]) u sp := by
    refine forall₂_imp_mem hu ?_
    intro z q hq hz
    have : q.1 ≠ var := fun e => hk.2.2 q.1 (List.mem_map_of_mem hq) var (by simp) e
    simpa [this] using hz
  have hw' : List.Forall₂ (fun z (q : String × List String) => z ∈ q.2 ∧ z ∈ pre ++ x :: post ++ extra ++ [s]) w sq := by
    refine forall₂_imp_mem hw ?_
    intro z q hq hz
    have : q.1 ≠ var := fun e => hk2.1 (List.mem_map.mpr ⟨q, hq, e⟩)
    simpa [this] using hz
  have hsub : ∀ {u' : List String} {l : List (String × List String)}, (∀ q ∈ l, q ∈ requestedValues c) →
      List.Forall₂ (fun z (q : String × List String) => z ∈ q.2 ∧ z ∈ pre ++ x :: post ++ extra ++ [s]) u' l →
      ∀ z ∈ u', z ∈ pre ++ x :: post ++ [s] := by
    intro u' l hl h z hz
    obtain ⟨q, hq, hz1, hz2⟩ := forall₂_left_mem h hz
    simp only [List.mem_append, List.mem_cons, List.not_mem_nil, or_false] at hz2 ⊢
    rcases hz2 with (h | h) | h
    · exact Or.inl h
    · exact absurd hz1 (C.first.2.2.2 z h q (hl q hq))
    · exact Or.inr h
  have hreq : requestedValues c = sp ++ (var, vals) :: sq ++ [(c.indyVar, c.indyVals)] ++ [("stat_name", c.stats)] := by
    unfold requestedValues
    rw [hser, if_neg hne]
  have hdisj := C.disjoint
  have huniq : u ++ x :: w ++ [i] ++ [s] = pre ++ x :: post ++ [i] ++ [s] := by
    refine product_unique (Ls := (requestedValues c).map Prod.snd) ?_ ?_ ?_ ?_
    · rw [List.pairwise_map]; exact hdisj
    · rw [List.forall₂_map_right_iff, hreq]
      exact forall₂_append' (forall₂_append' (forall₂_append' (hu'.imp fun _ _ h => h.1) (.cons hx (hw'.imp fun _ _ h => h.1)))
        (.cons hi' .nil)) (.cons hs .nil)
    · rw [List.forall₂_map_right_iff, hreq]
      exact forall₂_append' (forall₂_append' (forall₂_append' hpre (.cons hx hpost)) (.cons hi' .nil)) (.cons hs .nil)
    · intro z hz
      have hz' : z ∈ pre ++ x :: post ++ [s] ∨ z = i := by
        simp only [List.mem_append, List.mem_cons, List.not_mem_nil, or_false] at hz
        rcases hz with ((hz | hz | hz) | hz) | hz
        · exact Or.inl (hsub (fun q hq => by rw [hreq]; simp [hq]) hu' z hz)
        · exact Or.inl (by simp [hz])
        · exact Or.inl (hsub (fun q hq => by rw [hreq]; simp [hq]) hw' z hz)
        · exact Or.inr hz
        · exact Or.inl (by simp [hz])
      simp only [List.mem_append, List.mem_cons, List.not_mem_nil, or_false] at hz' ⊢
      rcases hz' with (hz | hz) | hz
      · exact Or.inl (Or.inl hz)
      · exact Or.inr hz
      · exact Or.inl (Or.inr hz)
  have hlen : u.length = pre.length := hu'.length_eq.trans hpre.length_eq.symm
  simp only [List.append_assoc] at huniq
  obtain ⟨rfl, e5⟩ := List.append_inj huniq hlen
  have e6 : w = post := by
    simp only [List.cons_append, List.cons.injEq, true_and] at e5
    exact (List.append_inj' e5 rfl).1
  refine ⟨i, hi', ?_⟩
  rw [e1, e2, ← e3, en, es, e6]
  simp

/-! ### The bootstrap of a curve -/

/-- Limits exist if value and replicates are numbers. -/
theorem limits_numbers {v : Option ℚ} {dist : List Cell} {m : CiMethod} (hne : dist ≠ []) (hd : ∀ x ∈ dist, ∃ q, x = some q) :
    LimitsDefined m v dist := by
  unfold LimitsDefined
  cases m with
  | other => exact Or.inr (Or.inl rfl)
  | pivotal =>
    refine Or.inr (Or.inr (Or.inl ⟨rfl, fun h => ?_⟩))
    obtain ⟨q, e⟩ := hd _ h
    simp at e
  | perc =>
    obtain ⟨x, hx⟩ := List.exists_mem_of_ne_nil _ hne
    obtain ⟨q, rfl⟩ := hd x hx
    exact Or.inr (Or.inr (Or.inr ⟨rfl, q, hx⟩))

theorem mapM_ok_each {α β : Type} (g : α → Except PyErr β) (P : β → Prop) : ∀ (l : List α), (∀ x ∈ l, ∃ y, g x = .ok y ∧ P y) →
    ∃ r, l.mapM g = .ok r ∧ (∀ y ∈ r, P y) ∧ r.length = l.length
  | [], _ => ⟨[], rfl, by simp, rfl⟩
  | x :: l, h => by
    obtain ⟨y, h1, h2⟩ := h x (by simp)
    obtain ⟨r, h3, h4, h5⟩ := mapM_ok_each g P l (fun z hz => h z (by simp [hz]))
    refine ⟨y :: r, ?_, ?_, by simp [h5]⟩
    · rw [List.mapM_cons, h1]
      simp only [bind, Except.bind]
      rw [h3]
      rfl
    · intro z hz
      rcases List.mem_cons.mp hz with rfl | hz
      · exact h2
      · exact h4 z hz

/-- The difference of two series of the same length, whose statistic is always a number, has bootstrap limits. -/
theorem derived_parts {statOf : String → List (List Val) → Except PyErr PyNum} {etb : List PyNum → List PyNum → PyNum}
    {s : BootSettings} {f : Frame} {op : String} {rows₁ rows₂ : List (List Val)} {ids : List (List ℕ)} {s₁ s₂ : String} {k : ℕ}
    (hop : op = "DIFF" ∨ op = "SINGLE" ∨ op = "DIFF_SIG") (hc : "stat_name" ∈ f.cols) (hne : rows₁ ≠ []) (hlen : rows₁.length = rows₂.length)
    (hw : ∀ r ∈ rows₁ ++ rows₂, r.length = f.cols.length)
    (hs₁ : ∀ r ∈ rows₁, cellAt r (f.cols.idxOf "stat_name") = .str s₁)
    (hs₂ : ∀ r ∈ rows₂, cellAt r (f.cols.idxOf "stat_name") = .str s₂)
    (hids : IndexMatrix rows₁.length k ids) (hk : 0 < k) (ha : 0 ≤ s.alpha ∧ s.alpha ≤ 1)
    (hsort : ∀ rows, ∃ data, sortData f rows = .ok data)
    (hnum₁ : ∀ zs, zs ≠ [] → (∀ r ∈ zs, r ∈ rows₁) → ∃ x, statOf (lower s₁) zs = .ok (.num x))
    (hnum₂ : ∀ zs, zs ≠ [] → (∀ r ∈ zs, r ∈ rows₂) → ∃ x, statOf (lower s₂) zs = .ok (.num x)) :
    ∃ a₁ a₂ both v sims dist r, sortData f rows₁ = .ok a₁ ∧ sortData f rows₂ = .ok a₂ ∧ joinSeries op a₁ a₂ = .ok both ∧
      calcStatsDerived statOf etb f both = .ok v ∧ generateDistributions both (blockLength s both.length) ids = .ok sims ∧
      sims.mapM (calcStatsDerived statOf etb f) = .ok dist ∧
      confidenceInterval (dist.map PyNum.cell) v.cell s.alpha s.method = .ok r := by
  have hvop : ValueOperation op := by
    rcases hop with h | h | h
    · exact Or.inl h
    · exact Or.inr (Or.inr (Or.inr (Or.inr h)))
    · exact Or.inr (Or.inl h)
  obtain ⟨a₁, h1⟩ := hsort rows₁
  obtain ⟨a₂, h2⟩ := hsort rows₂
  have p₁ := (sortData_spec h1).1
  have p₂ := (sortData_spec h2).1
  have hla : a₁.length = a₂.length := by rw [p₁.length_eq, p₂.length_eq, hlen]
  obtain ⟨both, h3⟩ : ∃ both, joinSeries op a₁ a₂ = .ok both := by unfold joinSeries; rw [if_pos hla]; exact ⟨_, rfl⟩
  obtain ⟨-, hf, hs, hlast⟩ := join_halves h3 (w := f.cols.length)
    (fun r hr => hw r (List.mem_append_left _ (p₁.mem_iff.mp hr)))
    (fun r hr => hw r (List.mem_append_right _ (p₂.mem_iff.mp hr)))
  have hbl : both.length = rows₁.length := by rw [← p₁.length_eq, ← hf, List.length_map]
  have hm : IndexMatrix both.length k ids := by rw [hbl]; exact hids
  have hbne : both ≠ [] := by
    rintro rfl
    exact hne (List.length_eq_zero_iff.mp hbl.symm)
  have ev : ∀ rows, rows ≠ [] → (∀ r ∈ rows, r ∈ both) → ∃ z, calcStatsDerived statOf etb f rows = .ok z ∧
      ∃ q, z.cell = some q := by
    intro rows n m
    have m₁ : ∀ r ∈ rows.map firstHalf, r ∈ rows₁ := by
      intro r hr
      obtain ⟨t, ht, rfl⟩ := List.mem_map.mp hr
      exact p₁.mem_iff.mp (hf ▸ List.mem_map_of_mem (m t ht))
    have m₂ : ∀ r ∈ rows.map secondHalf, r ∈ rows₂ := by
      intro r hr
      obtain ⟨t, ht, rfl⟩ := List.mem_map.mp hr
      exact p₂.mem_iff.mp (hs ▸ List.mem_map_of_mem (m t ht))
    obtain ⟨c1, c2⟩ := calcStatsDerived_eq hvop hc n rfl rfl (fun r hr => hlast r (m r hr)) (statOf := statOf) (etb := etb)
      (fun r hr => hs₁ r (m₁ r hr)) (fun r hr => hs₂ r (m₂ r hr))
    obtain ⟨x₁, e₁⟩ := hnum₁ _ (by simpa using n) m₁
    obtain ⟨x₂, e₂⟩ := hnum₂ _ (by simpa using n) m₂
    cases hz : calcStatsDerived statOf etb f rows with
    | error e =>
      rcases c2 e hz with h | h
      · rw [e₁] at h; simp at h
      · rw [e₂] at h; simp at h
    | ok z =>
      refine ⟨z, rfl, ?_⟩
      obtain ⟨u, v, g1, g2, g3, -⟩ := c1 z hz
      rw [e₁] at g1
      rw [e₂] at g2
      rw [g3 x₁ x₂ (Except.ok.inj g1).symm (Except.ok.inj g2).symm]
      rcases hop with rfl | rfl | rfl
      · exact ⟨_, rfl⟩
      · exact ⟨_, rfl⟩
      · exact ⟨_, rfl⟩
  obtain ⟨v, hv, q, hq⟩ := ev both hbne (fun _ h => h)
  obtain ⟨dist, hd, hdn, hdl⟩ := mapM_ok_each (calcStatsDerived statOf etb f) (fun z => ∃ q, z.cell = some q)
    (ids.map (fun row => pick both (positionsUsed (blockLength s both.length) row))) (by
      intro rows hr
      obtain ⟨row, hrow, rfl⟩ := List.mem_map.mp hr
      exact ev _ (pick_ne hbne _ (hm.2 row hrow).1 (hm.2 row hrow).2) (fun r h => pick_mem h))
  have hdne : dist ≠ [] := by
    rintro rfl
    rw [List.length_map, hids.1] at hdl
    simp at hdl
    omega
  obtain ⟨r, hr⟩ := (C262_interval_iff (dist.map PyNum.cell) (by simpa using hdne) v.cell s.alpha ha.1 ha.2 s.method).mpr
    (limits_numbers (by simpa using hdne) (by
      intro x hx
      obtain ⟨z, hz, rfl⟩ := List.mem_map.mp hx
      exact hdn z hz))
  exact ⟨a₁, a₂, both, v, _, dist, r, h1, h2, h3, hv, generate_pick both _ k ids hm, hd, hr⟩

/-- The difference of two series of the same length, whose statistic is always a number, can be bootstrapped. -/
theorem derivedBoot_completes {statOf : String → List (List Val) → Except PyErr PyNum} {etb : List PyNum → List PyNum → PyNum}
    {s : BootSettings} {f : Frame} {op : String} {rows₁ rows₂ : List (List Val)} {ids : List (List ℕ)} {s₁ s₂ : String} {k : ℕ}
    (hop : op = "DIFF" ∨ op = "SINGLE") (hc : "stat_name" ∈ f.cols) (hne : rows₁ ≠ []) (hlen : rows₁.length = rows₂.length)
    (hw : ∀ r ∈ rows₁ ++ rows₂, r.length = f.cols.length)
    (hs₁ : ∀ r ∈ rows₁, cellAt r (f.cols.idxOf "stat_name") = .str s₁)
    (hs₂ : ∀ r ∈ rows₂, cellAt r (f.cols.idxOf "stat_name") = .str s₂)
    (hids : IndexMatrix rows₁.length k ids) (hk : 0 < k) (ha : 0 ≤ s.alpha ∧ s.alpha ≤ 1)
    (hsort : ∀ rows, ∃ data, sortData f rows = .ok data)
    (hnum₁ : ∀ zs, zs ≠ [] → (∀ r ∈ zs, r ∈ rows₁) → ∃ x, statOf (lower s₁) zs = .ok (.num x))
    (hnum₂ : ∀ zs, zs ≠ [] → (∀ r ∈ zs, r ∈ rows₂) → ∃ x, statOf (lower s₂) zs = .ok (.num x)) :
    ∃ r, derivedBoot statOf etb s f op rows₁ rows₂ ids = .ok r := by
  obtain ⟨a₁, a₂, both, v, sims, dist, r, h1, h2, h3, hv, hg, hd, hr⟩ := derived_parts (statOf := statOf) (etb := etb) (s := s)
    (hop.imp id Or.inl) hc hne hlen hw hs₁ hs₂ hids hk ha hsort hnum₁ hnum₂
  refine ⟨r, ?_⟩
  unfold derivedBoot
  simp only [h1, h2, h3, bind, Except.bind, hv, hg, hd, hr, catchKeyError]

/-- The significance of such a difference can be computed if the values of both series are numbers. -/
theorem derivedSig_completes {statOf : String → List (List Val) → Except PyErr PyNum} {etb : List PyNum → List PyNum → PyNum}
    {s : BootSettings} {f : Frame} {rows₁ rows₂ : List (List Val)} {ids : List (List ℕ)} {s₁ s₂ : String} {k : ℕ}
    (hc : "stat_name" ∈ f.cols) (hne : rows₁ ≠ []) (hlen : rows₁.length = rows₂.length)
    (hw : ∀ r ∈ rows₁ ++ rows₂, r.length = f.cols.length)
    (hs₁ : ∀ r ∈ rows₁, cellAt r (f.cols.idxOf "stat_name") = .str s₁)
    (hs₂ : ∀ r ∈ rows₂, cellAt r (f.cols.idxOf "stat_name") = .str s₂)
    (hids : IndexMatrix rows₁.length k ids) (hk : 0 < k) (ha : 0 ≤ s.alpha ∧ s.alpha ≤ 1)
    (hsort : ∀ rows, ∃ data, sortData f rows = .ok data)
    (hnum₁ : ∀ zs, zs ≠ [] → (∀ r ∈ zs, r ∈ rows₁) → ∃ x, statOf (lower s₁) zs = .ok (.num x))
    (hnum₂ : ∀ zs, zs ≠ [] → (∀ r ∈ zs, r ∈ rows₂) → ∃ x, statOf (lower s₂) zs = .ok (.num x))
    (stat : String) (u₁ u₂ : ℚ) : ∃ r, derivedSig statOf etb s f stat rows₁ rows₂ (.num u₁) (.num u₂) ids = .ok r := by
  obtain ⟨a₁, a₂, both, v, sims, dist, r, h1, h2, h3, hv, hg, hd, hr⟩ := derived_parts (statOf := statOf) (etb := etb) (s := s)
    (Or.inr (Or.inr rfl)) hc hne hlen hw hs₁ hs₂ hids hk ha hsort hnum₁ hnum₂
  obtain ⟨x, hx⟩ : ∃ x, diffSig stat dist v (.num u₁) (.num u₂) = .ok x := by
    unfold diffSig sigAdjust
    split_ifs <;> exact ⟨_, rfl⟩
  refine ⟨(r, x), ?_⟩
  unfold derivedSig
  simp only [h1, h2, h3, bind, Except.bind, hv, hg, hd, hr, hx]

/-! ### The axis -/

theorem derived_loop_ok {statOf : String → List (List Val) → Except PyErr PyNum} {etb : List PyNum → List PyNum → PyNum}
    {s : BootSettings} {draws : ℕ → ℕ → List (List ℕ)} {f : Frame} {c : AggConfig} {curves : List (String × DerivedCurve)}
    (pts : List (List String)) (st : BootState)
    (hp : ∀ p ∈ pts, isDerivedPoint (some p) = true ∧ ∀ n stat, ∃ v,
      derivedPointBoot statOf etb s f c.groups curves stat st.results p (draws n) = .ok v) :
    ∃ st', pts.foldlM (bootStep statOf etb s draws f c curves) st = .ok st' := by
  induction pts generalizing st with
  | nil => exact ⟨st, rfl⟩
  | cons p pts ih =>
    rw [List.foldlM_cons]
    obtain ⟨hd, hv⟩ := hp p (by simp)
    obtain ⟨v, hv⟩ := hv st.out.length (pointStat c.stats p st.stat)
    have hstep : bootStep statOf etb s draws f c curves st p = .ok ⟨pointStat c.stats p st.stat, st.results,
        st.out ++ [⟨p, c.fcstVars.head?, v.1, v.2.1, v.2.2, 0⟩]⟩ := by
      unfold bootStep
      simp only [hd, if_true, bind, Except.bind]
      rw [hv]
    rw [hstep]
    simp only [bind, Except.bind]
    exact ih _ (fun q hq => hp q (by simp [hq]))

theorem plain_loop_ok {statOf : String → List (List Val) → Except PyErr PyNum} {etb : List PyNum → List PyNum → PyNum}
    {s : BootSettings} {draws : ℕ → ℕ → List (List ℕ)} {f : Frame} {c : AggConfig} (R : BootRequest f c)
    (curves : List (String × DerivedCurve)) (k : ℕ) (hk : 0 < k) (hdraw : ∀ i n, IndexMatrix n k (draws i n))
    (hrows : f.rows ≠ []) (hcol : "stat_name" ∈ f.cols) (hsort : ∀ rows, ∃ data, sortData f rows = .ok data)
    (hv : ∀ q ∈ requestedValues c, ∀ v ∈ q.2, isDerivedPoint (some [v]) = false)
    (hnum : ∀ st ∈ c.stats, ∀ zs, zs ≠ [] → (∀ r ∈ zs, r ∈ f.rows) → ∃ x, statOf (lower st) zs = .ok (.num x)) :
    ∃ st', c.plainPoints.foldlM (bootStep statOf etb s draws f c curves) ⟨"", [], []⟩ = .ok st' := by
  have hplain := plain_not_derived (c := c) (fun q hq v hm => hv q (fields_eq R.fields ▸ hq) v hm)
  have hstep : ∀ b, ∀ p ∈ c.plainPoints, ∃ b', bootStep statOf etb s draws f c curves b p = .ok b' := by
    intro b p hp
    obtain ⟨rows, hr⟩ := point_rows_ok (f := f) R.fields hcol hp
    obtain ⟨m1, st, hst, hps, -⟩ := plain_rows R hp hr
    unfold bootStep
    simp only [hplain p hp, Bool.false_eq_true, if_false, bind, Except.bind, hr, hps]
    by_cases he : rows = []
    · subst he
      exact ⟨_, rfl⟩
    · obtain ⟨data, hd⟩ := hsort rows
      have hdp := (sortData_spec hd).1
      have hdne : data ≠ [] := by rintro rfl; exact he (List.nil_perm.mp hdp)
      let val : List (List Val) → PyNum := fun zs => match statOf (lower st) zs with | .ok v => v | .error _ => .none
      have hval : ∀ zs, zs ≠ [] → (∀ r ∈ zs, r ∈ rows) → statOf (lower st) zs = .ok (val zs) ∧ ∃ x, val zs = .num x := by
        intro zs z1 z2
        obtain ⟨x, hx⟩ := hnum st hst zs z1 (fun r hr => m1 r (z2 r hr))
        have : val zs = .num x := by simp only [val, hx]
        exact ⟨by rw [this, hx], x, this⟩
      have hids := hdraw b.out.length rows.length
      have hids' : IndexMatrix data.length k (draws b.out.length rows.length) := by rw [hdp.length_eq]; exact hids
      obtain ⟨r, hb⟩ := (plainBoot_iff (statOf := statOf) (s := s) (st := lower st) hids hk he hd val
        (fun zs z1 z2 => (hval zs z1 z2).1)).mpr (limits_numbers (by
          intro h0
          have h1 := hids.1
          rw [List.map_eq_nil_iff.mp h0] at h1
          simp at h1
          omega) (by
          intro x hx
          obtain ⟨row, hrow, rfl⟩ := List.mem_map.mp hx
          obtain ⟨q, hq⟩ := (hval _ (pick_ne hdne (if s.cbb then Nat.sqrt rows.length else 1) (hids'.2 row hrow).1
            (hids'.2 row hrow).2) (fun r hr => hdp.mem_iff.mp (pick_mem hr))).2
          exact ⟨q, by rw [hq]; rfl⟩))
      rw [hb]
      exact ⟨_, rfl⟩
  generalize c.plainPoints = pts at hstep
  generalize (⟨"", [], []⟩ : BootState) = b
  induction pts generalizing b with
  | nil => exact ⟨b, rfl⟩
  | cons p pts ih =>
    rw [List.foldlM_cons]
    obtain ⟨b', hb⟩ := hstep b p (by simp)
    rw [hb]
    simp only [bind, Except.bind]
    exact ih (fun b q hq => hstep b q (by simp [hq])) b'

/-! ### The run -/

/-- Every derived curve that is requested is a difference (DIFF) or a single series (SINGLE).  Differences are of texts
without a colon, for independent values without a colon. -/
def PlainCurves (c : AggConfig) : Prop :=
  ∀ d ∈ c.derived, ∃ pre post extra x y st a b op name, d = [a, b, op] ∧
    CurveRequest c pre post extra x y st a b op name ∧
    (op = "SINGLE" ∨ op = "DIFF" ∧ ∀ z ∈ pre ++ x :: y :: post ++ extra ++ c.indyVals ++ [st, name], ':' ∉ z.toList)

/-- Curves that may also be significances (DIFF_SIG), which need one of the two methods of computing limits. -/
def PlainOrSigCurves (s : BootSettings) (c : AggConfig) : Prop :=
  ∀ d ∈ c.derived, ∃ pre post extra x y st a b op name, d = [a, b, op] ∧
    CurveNamed c pre post extra x y st a b op name ∧
    (op = "SINGLE" ∨ (op = "DIFF" ∨ op = "DIFF_SIG" ∧ s.method ≠ .other) ∧
      ∀ z ∈ pre ++ x :: y :: post ++ extra ++ c.indyVals ++ [st, name], ':' ∉ z.toList)

theorem PlainCurves.orSig {c : AggConfig} (hc : PlainCurves c) (s : BootSettings) : PlainOrSigCurves s c := by
  intro d hd
  obtain ⟨pre, post, extra, x, y, st, a, b, op, name, e, C, h⟩ := hc d hd
  exact ⟨pre, post, extra, x, y, st, a, b, op, name, e, C.toCurveNamed, h.imp id (fun h => ⟨Or.inl h.1, h.2⟩)⟩

section
variable {f : Frame} {p : AggParams} {init : List (String × List String)} {sv : String × List String}
  {parts : String → List String} {fix : List (String × List String)} {fv : String} {sts : List String}
  {rest : List (String × List String)}

/-- The lines of a plain point of the equalized data. -/
theorem equalized_rows (R : OneAxisRun f p init sv parts fix fv sts rest) (key : List Val → String) {G : List (List Val)}
    (hG : (p.axis₁.fcstVarVal.flatMap (fun q => q.2.map (fun s => (q.1, s)))).flatMap
      (keptRows f sv ((init ++ [sv]).map (fun x => (x.1, x.2.flatMap parts)) ++ fix) key) = G)
    (hreq : BootRequest ⟨f.cols, G⟩ (p.config p.axis₁)) {as : List String} {i st : String}
    (ha : List.Forall₂ (fun x q => x ∈ q.2) as (init ++ [sv])) (hi : i ∈ p.indyVals) (hs : st ∈ p.axis₁.stats)
    {rows : List (List Val)} (hrows : pointRows ⟨f.cols, G⟩ (((p.config p.axis₁).fields.map Prod.fst).zip
      (as ++ [i, st])) (p.config p.axis₁).fcstVars.head? = .ok rows) :
    rows = comparedRows f (init ++ [sv]) parts fix fv p.indyVar key as i st := by
  classical
  obtain ⟨as, v, rfl, h2, hv⟩ := forall₂_snoc ha
  have heq := equalized_point R key as v i st h2.length_eq hv hs
  rw [hG] at heq
  have hrv := requested_eq R
  have hhead : (p.config p.axis₁).fcstVars.head? = some fv := by simp [AggParams.config, R.fcst]
  have hzip : ((init ++ [sv] ++ [(p.indyVar, p.indyVals)] ++ [("stat_name", p.axis₁.stats)]).map Prod.fst).zip
      (as ++ [v] ++ [i, st]) = pointRequest (init ++ [sv]) p.indyVar (as ++ [v]) i st := by
    unfold pointRequest
    rw [List.append_assoc, List.map_append, List.zip_append (by simp [h2.length_eq])]
    rfl
  rw [fields_eq hreq.fields, hrv, hzip, hhead] at hrows
  unfold pointRows at hrows
  split at hrows
  · simp at hrows
  · simp only [Except.ok.injEq] at hrows
    rw [← hrows]
    unfold comparedRows
    rw [← heq]
    apply List.filter_congr
    intro r hr
    rw [Bool.eq_iff_iff, decide_eq_true_iff]
    refine pointFilters_iff hreq.wf ?_ hr
    intro q hq
    have hfo : List.Forall₂ (fun x (l : List String) => x ∈ l) (as ++ [v] ++ [i, st])
        ((requestedValues (p.config p.axis₁)).map Prod.snd) := by
      rw [hrv, List.forall₂_map_right_iff]
      rw [show as ++ [v] ++ [i, st] = as ++ [v] ++ [i] ++ [st] by simp]
      exact List.rel_append (List.rel_append (List.rel_append h2 (.cons hv .nil)) (.cons hi .nil)) (.cons hs .nil)
    unfold pointRequest at hq
    have hq2 : q.2 ∈ as ++ [v] ++ [i, st] := by
      rcases List.mem_append.mp hq with h | h
      · exact List.mem_append_left _ (List.of_mem_zip h).2
      · simp only [List.mem_cons, List.not_mem_nil, or_false] at h
        rcases h with rfl | rfl <;> simp
    obtain ⟨l, hl, hx⟩ := forall₂_mem_any hfo hq2
    obtain ⟨w, hw, rfl⟩ := List.mem_map.mp hl
    exact hreq.values w hw _ hx

theorem timeColumn_mem {indy : String} {b : Bool} (I : EqInput f indy b) : timeColumn f ∈ f.cols := by
  unfold timeColumn
  rcases I.valid with h | h
  · simp [h]
  · by_cases h' : "fcst_valid_beg" ∈ f.cols <;> simp [h, h']

/-- The cell of the statistic of the lines of a point. -/
theorem stat_cell {g : Frame} (hs : "stat_name" ∈ g.cols) {rows : List (List Val)} {s' : String}
    (hc : ∀ r ∈ rows, HasCell g r "stat_name" (.str s')) : ∀ r ∈ rows, cellAt r (g.cols.idxOf "stat_name") = .str s' := by
  intro r hr
  obtain ⟨j, hj⟩ := Frame.idx?_of_mem hs
  rw [← (idx?_eq_idxOf hj).1]
  exact hasCell_unique hj (hc r hr)

set_option maxHeartbeats 1000000 in
/-- C262: a run with event equalization, bootstrapping and derived curves (DIFF, SINGLE or DIFF_SIG) completes if no series has two
lines of the same time and lead and the statistics have a number for every non-empty set of lines. -/
theorem C262_sig_curves_partial (statOf : String → List (List Val) → Except PyErr PyNum)
    (etb : List PyNum → List PyNum → PyNum) (s : BootSettings) (ha : 0 ≤ s.alpha ∧ s.alpha ≤ 1)
    (draws₁ draws₂ : ℕ → ℕ → List (List ℕ)) (k : ℕ) (hk : 0 < k)
    (hdraw : ∀ i n, IndexMatrix n k (draws₁ i n)) (R : OneAxisRun f p init sv parts fix fv sts rest)
    (key : List Val → String)
    (hkey : ∀ r ∈ f.rows, IsCaseKey f p.indyVar true r (key r)) (hindy : CaseFixesIndependent f p.indyVar key)
    (htime : CaseFixesTime f key) (hread : ∀ x ∈ init ++ [sv], ∀ v ∈ x.2, ∀ w ∈ parts v, ReadAlike w)
    (hcurves : PlainOrSigCurves s (p.config p.axis₁))
    (hn : ∀ as i st, List.Forall₂ (fun x q => x ∈ q.2) as (init ++ [sv]) → i ∈ p.indyVals → st ∈ p.axis₁.stats →
      ((comparedRows f (init ++ [sv]) parts fix fv p.indyVar key as i st).map (caseOf f)).Nodup)
    (hnum : ∀ st ∈ p.axis₁.stats, ∀ zs, zs ≠ [] → (∀ r ∈ zs, r ∈ f.rows) → ∃ x, statOf (lower st) zs = .ok (.num x)) :
    ∃ out, bootRun statOf etb s draws₁ draws₂ f p = .ok out := by
  have hg := equalize_ok R key hkey
  generalize hG : (p.axis₁.fcstVarVal.flatMap (fun q => q.2.map (fun s => (q.1, s)))).flatMap
      (keptRows f sv ((init ++ [sv]).map (fun x => (x.1, x.2.flatMap parts)) ++ fix) key) = G at hg
  have hsub : ∀ r ∈ G, r ∈ f.rows := by
    intro r hr
    rw [← hG] at hr
    unfold keptRows at hr
    simp only [List.mem_flatMap, List.mem_filter] at hr
    obtain ⟨_, _, h3⟩ := hr
    exact h3.1.1
  obtain ⟨hreq, hpl⟩ := run_request R hsub
  have hfe := fields_eq hreq.fields
  have hserR : (p.config p.axis₁).series = init ++ [sv] := R.series
  have hkeys : ((p.config p.axis₁).series.map Prod.fst).Nodup := by
    rw [hserR]
    have := R.names
    rw [List.map_append] at this
    exact (List.nodup_append.mp this).1
  have hnumG : ∀ st ∈ (p.config p.axis₁).stats, ∀ zs, zs ≠ [] → (∀ r ∈ zs, r ∈ G) → ∃ x, statOf (lower st) zs = .ok (.num x) :=
    fun st hst zs z1 z2 => hnum st hst zs z1 (fun r hr => hsub r (z2 r hr))
  have hkG : ∀ st ∈ (p.config p.axis₁).stats, ∀ zs, zs ≠ [] → (∀ r ∈ zs, r ∈ G) → statOf (lower st) zs ≠ .error .keyError := by
    intro st hst zs z1 z2
    obtain ⟨x, hx⟩ := hnumG st hst zs z1 z2
    rw [hx]
    simp
  have haxis : ∃ out, bootAxis statOf etb s draws₁ ⟨f.cols, G⟩ (p.config p.axis₁) = .ok out := by
    by_cases hGe : G = []
    · refine ⟨[], ?_⟩
      unfold bootAxis
      rw [if_pos (by simp [Frame.isEmpty, hGe])]
    · obtain ⟨entries, hm, -, -⟩ := mapM_ok_each (derivedEntry (p.config p.axis₁)) (fun _ => True) (p.config p.axis₁).derived (by
        intro d hd
        obtain ⟨pre, post, extra, x, y, st, a, b, op, name, rfl, C, -⟩ := hcurves d hd
        obtain ⟨var, hentry, -⟩ := curve_entry C
        exact ⟨_, hentry, trivial⟩)
      obtain ⟨s₁, h₁⟩ := plain_loop_ok (statOf := statOf) (etb := etb) (s := s) hreq
        (entries.foldl (fun d e => dictSet d e.1 e.2.1) []) k hk hdraw hGe R.statistic
        (fun rows => sortData_exists R.input rows) hpl hnumG
      have hnd := plain_not_derived (c := p.config p.axis₁) (fun q hq v hm => hpl q (hfe ▸ hq) v hm)
      obtain ⟨g1, -, g3, g4, -⟩ := boot_results hreq hkG hdraw _ (fun q hq => ⟨hnd q hq, hq⟩) (by simp) h₁
      have g1' : ∀ w ∈ s₁.results, w.1 ∈ (p.config p.axis₁).plainPoints ∧ KeepsRows ⟨f.cols, G⟩ (p.config p.axis₁) w.1 w.2 := by
        intro w hw
        rcases g1 w hw with h | h
        · simp at h
        · exact ⟨h.1, h.2.1⟩
      have g1v : ∀ w ∈ s₁.results, KeepsValue statOf s ⟨f.cols, G⟩ (p.config p.axis₁) w.1 w.2 := by
        intro w hw
        rcases g1 w hw with h | h
        · simp at h
        · exact h.2.2
      obtain ⟨s₂, h₂⟩ := derived_loop_ok (statOf := statOf) (etb := etb) (s := s) (draws := draws₁) (f := ⟨f.cols, G⟩)
        (c := p.config p.axis₁) (curves := entries.foldl (fun d e => dictSet d e.1 e.2.1) [])
        (entries.flatMap (fun e => e.2.2)) s₁ (by
          intro q hq
          obtain ⟨e, he, hqe⟩ := List.mem_flatMap.mp hq
          obtain ⟨d, hd, hde⟩ := forall₂_right_mem (mapM_except_mem _ hm) he
          obtain ⟨pre, post, extra, x, y, st, a, b, op, name, rfl, C, hcol⟩ := hcurves d hd
          obtain ⟨i, hi, rfl⟩ := curve_points hreq.fields hkeys R.indy.1 C hde hqe
          have hi' : i ∈ p.indyVals := hi
          obtain ⟨d1, -, cv, r₁, r₂, hcv, m₁, m₂, hlook, hpair⟩ := curve_series hreq.fields hkeys hpl C hi hm
            (fun w hw => (g1' w hw).1) g4 g3
          refine ⟨d1, fun n stat => ?_⟩
          subst hcv
          have hs : st ∈ p.axis₁.stats := C.first.2.2.1
          obtain ⟨sp, var, vals, sq, hser, hpre, hpost, hx, hy, hxy⟩ := C.differs
          have hfor : ∀ z ∈ vals, List.Forall₂ (fun x q => x ∈ q.2) (pre ++ z :: post) (init ++ [sv]) := by
            intro z hz
            rw [← hserR, hser]
            exact List.rel_append hpre (.cons hz hpost)
          obtain ⟨q₁, k1, k2⟩ := (g1' _ m₁).2
          obtain ⟨q₂, k3, k4⟩ := (g1' _ m₂).2
          simp only at k1 k2 k3 k4
          obtain ⟨-, st₁, hst₁, hps₁, hcell₁⟩ := plain_rows hreq (g1' _ m₁).1 k1
          obtain ⟨-, st₂, hst₂, hps₂, hcell₂⟩ := plain_rows hreq (g1' _ m₂).1 k3
          have hq₁ := equalized_rows R key hG hreq (hfor x hx) hi' hs k1
          have hq₂ := equalized_rows R key hG hreq (hfor y hy) hi' hs k3
          have hs₁ : ∀ r ∈ q₁, r ∈ f.rows := by rw [hq₁]; exact comparedRows_sub
          have hs₂ : ∀ r ∈ q₂, r ∈ f.rows := by rw [hq₂]; exact comparedRows_sub
          have hn₁ := hn (pre ++ x :: post) i st (hfor x hx) hi' hs
          have hn₂ := hn (pre ++ y :: post) i st (hfor y hy) hi' hs
          have hkn : ∀ {rows : List (List Val)}, (∀ r ∈ rows, r ∈ f.rows) → (rows.map (caseOf f)).Nodup → (rows.map key).Nodup := by
            intro rows hr h
            unfold List.Nodup at h ⊢
            rw [List.pairwise_map] at h ⊢
            exact h.imp_of_mem (fun {a b} h1 h2 h3 e => h3 (htime a (hr a h1) b (hr b h2) e))
          have hperm := common_keys R key hindy hread (hfor x hx) (hfor y hy) hs (i := i) (by
            intro v hv
            simp only [List.mem_cons, List.not_mem_nil, or_false] at hv
            rcases hv with rfl | rfl
            · exact hkn comparedRows_sub hn₁
            · exact hkn comparedRows_sub hn₂)
          rw [← hq₁, ← hq₂] at hperm
          rw [← hq₁] at hn₁
          rw [← hq₂] at hn₂
          have hlen : q₁.length = q₂.length := by simpa using hperm.length_eq
          have hcd : checkDerived f.cols op (fullComponents (p.config p.axis₁).groups (pre ++ x :: post ++ extra ++ [st])
              (pre ++ name :: post ++ [i, st])) (fullComponents (p.config p.axis₁).groups (pre ++ y :: post ++ extra ++ [st])
              (pre ++ name :: post ++ [i, st])) q₁ q₂ = .ok (!(q₁.isEmpty || q₂.isEmpty)) := by
            rcases hcol with rfl | ⟨-, hcol⟩
            · exact C52_never_refused _ _ _ _ _ _ (Or.inl rfl)
            · have hfull : ∀ z, z = x ∨ z = y → ∀ w ∈ fullComponents (p.config p.axis₁).groups (pre ++ z :: post ++ extra ++ [st])
                  (pre ++ name :: post ++ [i, st]), ':' ∉ w.toList := by
                intro z hz w hw
                have hmem : ∀ w, w ∈ pre ++ z :: post ++ extra ++ [st] ∨ w ∈ (pre ++ name :: post ++ [i, st]).tail →
                    w ∈ pre ++ x :: y :: post ++ extra ++ (p.config p.axis₁).indyVals ++ [st, name] := by
                  intro w hw
                  have hw' : w ∈ pre ++ z :: post ++ extra ++ [st] ∨ w ∈ pre ++ name :: post ++ [i, st] :=
                    hw.imp id List.mem_of_mem_tail
                  have hi2 : w = i → w ∈ (p.config p.axis₁).indyVals := fun h => h ▸ hi
                  have hz2 : w = z → w = x ∨ w = y := fun h => h ▸ hz
                  simp only [List.mem_append, List.mem_cons, List.not_mem_nil, or_false] at hw' ⊢
                  rcases hw' with ((((h | h | h) | h) | h) | ((h | h | h) | h | h))
                  · simp [h]
                  · rcases hz2 h with h | h <;> simp [h]
                  · simp [h]
                  · simp [h]
                  · simp [h]
                  · simp [h]
                  · simp [h]
                  · simp [h]
                  · simp [hi2 h]
                  · simp [h]
                have hw' := (mem_fullComponents (p.config p.axis₁).groups _ _ (fun w hw => C.groups w (by
                  have := hmem w hw
                  simp only [List.mem_append, List.mem_cons, List.not_mem_nil, or_false] at this ⊢
                  rcases this with h | h | h
                  · exact Or.inl h
                  · exact Or.inr (Or.inl h)
                  · exact Or.inr (Or.inr (Or.inr (Or.inl h))))) w).mp hw
                exact hcol w (hmem w hw')
              exact check_distinct (f := f) R.input.lead R.statistic (timeColumn_mem R.input) hn₁ hn₂ (hfull x (Or.inl rfl))
                (hfull y (Or.inr rfl))
          unfold derivedPointBoot
          rw [hlook]
          simp only [hpair, k2, k4, bind, Except.bind]
          rw [hcd]
          by_cases h0 : q₁ = []
          · rw [h0]
            exact ⟨_, rfl⟩
          · have h0' : q₂ ≠ [] := by
              rintro rfl
              exact h0 (List.length_eq_zero_iff.mp hlen)
            have ht : (!(q₁.isEmpty || q₂.isEmpty)) = true := by
              rw [List.isEmpty_eq_false_iff.mpr h0, List.isEmpty_eq_false_iff.mpr h0']; rfl
            have hop1 : op ≠ "ETB" := by rcases hcol with h | ⟨h | h, -⟩ <;> [rw [h]; rw [h]; rw [h.1]] <;> decide
            rw [ht]
            simp only [if_true, hop1, if_false]
            by_cases hsig : op = "DIFF_SIG"
            · have hmeth : s.method ≠ .other := by
                rcases hcol with h | ⟨h | h, -⟩
                · rw [h] at hsig; exact absurd hsig (by decide)
                · rw [h] at hsig; exact absurd hsig (by decide)
                · exact h.2
              have hval : ∀ {w : List String × PointResult}, w ∈ s₁.results → ∀ {qs st'}, w.2.rows.getD [] = qs → qs ≠ [] →
                  (∀ r ∈ qs, r ∈ f.rows) → pointStat (p.config p.axis₁).stats w.1 "" = lower st' → st' ∈ p.axis₁.stats →
                  ∃ u, w.2.value = .num u := by
                intro w hw qs st' e1 e2 e3 e4 e5
                obtain ⟨data, v, z, v1, v2, v3, v4⟩ := g1v w hw (by rw [e1]; exact e2)
                rw [e1] at v1
                have pm := (sortData_spec v1).1
                obtain ⟨u, hu⟩ := hnum st' e5 data (by
                  rintro rfl
                  exact e2 (List.length_eq_zero_iff.mp pm.length_eq.symm)) (fun r hr => e3 r (pm.mem_iff.mp hr))
                rw [e4, hu] at v2
                rw [v3, v4 hmeth, ← Except.ok.inj v2]
                exact ⟨u, rfl⟩
              obtain ⟨u₁, hu₁⟩ := hval m₁ k2 h0 hs₁ (hps₁ "") hst₁
              obtain ⟨u₂, hu₂⟩ := hval m₂ k4 h0' hs₂ (hps₂ "") hst₂
              simp only at hu₁ hu₂
              rw [if_pos hsig, hu₁, hu₂]
              obtain ⟨r, hr⟩ := derivedSig_completes (statOf := statOf) (etb := etb) (s := s) (f := ⟨f.cols, G⟩)
                (ids := draws₁ n q₁.length) R.statistic h0 hlen (by
                  intro r hr
                  rcases List.mem_append.mp hr with h | h
                  · exact R.input.wf r (hs₁ r h)
                  · exact R.input.wf r (hs₂ r h))
                (stat_cell R.statistic (hcell₁ R.statistic)) (stat_cell R.statistic (hcell₂ R.statistic)) (hdraw _ _) hk ha
                (fun rows => sortData_exists R.input rows)
                (fun zs z1 z2 => hnum st₁ hst₁ zs z1 (fun r hr => hs₁ r (z2 r hr)))
                (fun zs z1 z2 => hnum st₂ hst₂ zs z1 (fun r hr => hs₂ r (z2 r hr))) stat u₁ u₂
              rw [hr]
              exact ⟨_, rfl⟩
            · have hop : op = "DIFF" ∨ op = "SINGLE" := by
                rcases hcol with h | ⟨h | h, -⟩
                · exact Or.inr h
                · exact Or.inl h
                · exact absurd h.1 hsig
              rw [if_neg hsig]
              obtain ⟨r, hr⟩ := derivedBoot_completes (statOf := statOf) (etb := etb) (s := s) (f := ⟨f.cols, G⟩)
                (ids := draws₁ n q₁.length) hop R.statistic h0 hlen (by
                  intro r hr
                  rcases List.mem_append.mp hr with h | h
                  · exact R.input.wf r (hs₁ r h)
                  · exact R.input.wf r (hs₂ r h))
                (stat_cell R.statistic (hcell₁ R.statistic)) (stat_cell R.statistic (hcell₂ R.statistic)) (hdraw _ _) hk ha
                (fun rows => sortData_exists R.input rows)
                (fun zs z1 z2 => hnum st₁ hst₁ zs z1 (fun r hr => hs₁ r (z2 r hr)))
                (fun zs z1 z2 => hnum st₂ hst₂ zs z1 (fun r hr => hs₂ r (z2 r hr)))
              rw [hr]
              exact ⟨_, rfl⟩)
      refine ⟨s₂.out, ?_⟩
      unfold bootAxis
      rw [if_neg (by simpa [Frame.isEmpty] using ⟨List.ne_nil_of_mem R.statistic, hGe⟩), hm]
      simp only [bind, Except.bind]
      rw [List.foldlM_append, h₁]
      simp only [bind, Except.bind]
      rw [h₂]
  obtain ⟨out, ho⟩ := haxis
  refine ⟨out, ?_⟩
  unfold bootRun
  rw [R.on, R.second]
  have ht : truthy (parseBool "True") = true := rfl
  rw [ht, if_pos rfl, hg]
  simp only [bind, Except.bind, List.isEmpty_nil, if_true]
  rw [ho]

/-- C262: a run with event equalization, bootstrapping and derived curves (DIFF or SINGLE) completes if no series has two
lines of the same time and lead and the statistics have a number for every non-empty set of lines. -/
theorem C262_curves_partial (statOf : String → List (List Val) → Except PyErr PyNum)
    (etb : List PyNum → List PyNum → PyNum) (s : BootSettings) (ha : 0 ≤ s.alpha ∧ s.alpha ≤ 1)
    (draws₁ draws₂ : ℕ → ℕ → List (List ℕ)) (k : ℕ) (hk : 0 < k)
    (hdraw : ∀ i n, IndexMatrix n k (draws₁ i n)) (R : OneAxisRun f p init sv parts fix fv sts rest)
    (key : List Val → String)
    (hkey : ∀ r ∈ f.rows, IsCaseKey f p.indyVar true r (key r)) (hindy : CaseFixesIndependent f p.indyVar key)
    (htime : CaseFixesTime f key) (hread : ∀ x ∈ init ++ [sv], ∀ v ∈ x.2, ∀ w ∈ parts v, ReadAlike w)
    (hcurves : PlainCurves (p.config p.axis₁))
    (hn : ∀ as i st, List.Forall₂ (fun x q => x ∈ q.2) as (init ++ [sv]) → i ∈ p.indyVals → st ∈ p.axis₁.stats →
      ((comparedRows f (init ++ [sv]) parts fix fv p.indyVar key as i st).map (caseOf f)).Nodup)
    (hnum : ∀ st ∈ p.axis₁.stats, ∀ zs, zs ≠ [] → (∀ r ∈ zs, r ∈ f.rows) → ∃ x, statOf (lower st) zs = .ok (.num x)) :
    ∃ out, bootRun statOf etb s draws₁ draws₂ f p = .ok out :=
  C262_sig_curves_partial statOf etb s ha draws₁ draws₂ k hk hdraw R key hkey hindy htime hread (hcurves.orSig s) hn hnum

end

end Metcalcpy.Props
