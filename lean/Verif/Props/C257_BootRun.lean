/-
C257  Bootstrapping adds limits to the aggregation table and changes nothing else in it.
-/
import Verif.Model.AggBootRun
import Verif.Props.C102_DerivedPoints
import Verif.Props.C105_DerivedBoot
import Verif.Props.C247_DerivedRun

namespace Metcalcpy.Props

open Metcalcpy Spec

/-! ### The results of both runs side by side -/

theorem lineStat_sorted (l : LineType) (f : Frame) : lineStat l f = sortedStat (preparedStat l f) f := rfl

/-- The row of the table without bootstrapping and the row with it: the same point, forecast variable and number of rows;
the same value at a plain point, and the same value up to the rounding to five decimals at a derived one. -/
def SameRow (a : AggOut) (b : BootOut) : Prop :=
  a.point = b.point ∧ a.fcstVar = b.fcstVar ∧ a.nstats = b.nstats ∧
  (isDerivedPoint (some a.point) = false → ∀ q, a.value = .num q ↔ b.value = .num q) ∧
  (isDerivedPoint (some a.point) = true → (a.value = .none ∧ b.value = .none) ∨
    ∃ q r, a.value = .num r ∧ b.value = .num q ∧ |r - q| ≤ (1 / 2) / 10 ^ 5)

theorem ci_value {dist : List Cell} {v : Option ℚ} {alpha : ℚ} {m : CiMethod} {r : BootResult} (hm : m ≠ .other)
    (h : confidenceInterval dist v alpha m = .ok r) : r.value = v := by
  have hmk : ∀ l u, (mkBoot l v u).value = v := by
    intro l u
    unfold mkBoot
    split
    · split <;> rfl
    · rfl
  unfold confidenceInterval at h
  cases v with
  | none =>
    simp only [Except.ok.injEq] at h
    rw [← h]
    exact hmk _ _
  | some v =>
    cases m with
    | other => exact absurd rfl hm
    | pivotal =>
      simp only [bind, Except.bind] at h
      split at h
      · simp at h
      · split at h
        · simp at h
        · simp only [Except.ok.injEq] at h
          rw [← h]
          exact hmk _ _
    | perc =>
      simp only [bind, Except.bind] at h
      split at h
      · simp only [Except.ok.injEq] at h
        rw [← h]
        exact hmk _ _
      · split at h
        · simp at h
        · split at h
          · simp at h
          · simp only [Except.ok.injEq] at h
            rw [← h]
            exact hmk _ _

/-- What is known of a kept result of a point: its rows, and the statistic of the rows in order. -/
def KeptRows (statOf : String → List (List Val) → Except PyErr PyNum) (f : Frame) (c : AggConfig) (a : PointResult) : Prop :=
  ∀ rows, a.rows = some rows → rows ≠ [] ∧ (∀ r ∈ rows, r ∈ f.rows) ∧ ∃ s ∈ c.stats,
    ("stat_name" ∈ f.cols → ∀ r ∈ rows, HasCell f r "stat_name" (.str s)) ∧
    ∃ data, sortData f rows = .ok data ∧ statOf (lower s) data = .ok a.value

/-- The results of both runs for a point. -/
def SameResult (statOf : String → List (List Val) → Except PyErr PyNum) (f : Frame) (c : AggConfig)
    (a b : List String × PointResult) : Prop :=
  a.1 = b.1 ∧ a.2.rows = b.2.rows ∧ b.2.value = toPyNum a.2.value.cell ∧ KeptRows statOf f c a.2

theorem putPoint_rel {α : Type} {R : List String × α → List String × α → Prop} {d d' : List (List String × α)}
    (h : List.Forall₂ R d d') (hk : ∀ a b, R a b → a.1 = b.1) {k : List String} {v v' : α} (hv : R (k, v) (k, v')) :
    List.Forall₂ R (putPoint d k v) (putPoint d' k v') := by
  have hany : d.any (fun p => p.1 == k) = d'.any (fun p => p.1 == k) := by
    induction h with
    | nil => rfl
    | cons h1 _ ih => simp only [List.any_cons, hk _ _ h1, ih]
  unfold putPoint
  rw [← hany]
  split
  · rename_i hc
    clear hany hc
    induction h with
    | nil => exact .nil
    | @cons a b _ _ h1 _ ih =>
      simp only [List.map_cons]
      refine .cons ?_ ih
      rw [hk _ _ h1]
      split
      · exact hv
      · exact h1
  · exact forall₂_append' h (.cons hv .nil)

theorem findPair_rel {R : List String × PointResult → List String × PointResult → Prop} (hk : ∀ a b, R a b → a.1 = b.1)
    (p₁ p₂ : List String) : ∀ {d d' : List (List String × PointResult)}, List.Forall₂ R d d' →
    ∀ {x y x' y' : Option PointResult}, (∀ a, x = some a → ∃ k b, x' = some b ∧ R (k, a) (k, b)) → (x = none → x' = none) →
      (∀ a, y = some a → ∃ k b, y' = some b ∧ R (k, a) (k, b)) → (y = none → y' = none) →
      (∀ a, (findPair p₁ p₂ d x y).1 = some a → ∃ k b, (findPair p₁ p₂ d' x' y').1 = some b ∧ R (k, a) (k, b)) ∧
      ((findPair p₁ p₂ d x y).1 = none → (findPair p₁ p₂ d' x' y').1 = none) ∧
      (∀ a, (findPair p₁ p₂ d x y).2 = some a → ∃ k b, (findPair p₁ p₂ d' x' y').2 = some b ∧ R (k, a) (k, b)) ∧
      ((findPair p₁ p₂ d x y).2 = none → (findPair p₁ p₂ d' x' y').2 = none) := by
  intro d d' h
  induction h with
  | nil => intro x y x' y' h1 h2 h3 h4; exact ⟨h1, h2, h3, h4⟩
  | @cons a b l l' hab hrest ih =>
    intro x y x' y' h1 h2 h3 h4
    obtain ⟨ak, av⟩ := a
    obtain ⟨bk, bv⟩ := b
    have hkey : ak = bk := hk _ _ hab
    subst hkey
    have e : ∀ (p : List String) (z z' : Option PointResult), (∀ a, z = some a → ∃ k b, z' = some b ∧ R (k, a) (k, b)) →
        (z = none → z' = none) →
        (∀ a, (if ak.all (fun x => decide (x ∈ p)) then some av else z) = some a →
          ∃ k b, (if ak.all (fun x => decide (x ∈ p)) then some bv else z') = some b ∧ R (k, a) (k, b)) ∧
        ((if ak.all (fun x => decide (x ∈ p)) then some av else z) = none →
          (if ak.all (fun x => decide (x ∈ p)) then some bv else z') = none) := by
      intro p z z' z1 z2
      by_cases hall : ak.all (fun x => decide (x ∈ p)) = true
      · simp only [hall, if_true]
        refine ⟨fun a ha => ?_, by simp⟩
        simp only [Option.some.injEq] at ha
        subst ha
        exact ⟨ak, bv, rfl, hab⟩
      · simp only [hall, Bool.false_eq_true, if_false]
        exact ⟨z1, z2⟩
    obtain ⟨e1, e2⟩ := e p₁ x x' h1 h2
    obtain ⟨e3, e4⟩ := e p₂ y y' h3 h4
    simp only [findPair]
    generalize (if ak.all (fun x => decide (x ∈ p₁)) then some av else x) = u at *
    generalize (if ak.all (fun x => decide (x ∈ p₁)) then some bv else x') = u' at *
    generalize (if ak.all (fun x => decide (x ∈ p₂)) then some av else y) = w at *
    generalize (if ak.all (fun x => decide (x ∈ p₂)) then some bv else y') = w' at *
    have s1 : u.isSome = u'.isSome := by
      cases u with
      | none => rw [e2 rfl]
      | some a => obtain ⟨k, b, hb, -⟩ := e1 a rfl; rw [hb]; rfl
    have s2 : w.isSome = w'.isSome := by
      cases w with
      | none => rw [e4 rfl]
      | some a => obtain ⟨k, b, hb, -⟩ := e3 a rfl; rw [hb]; rfl
    rw [← s1, ← s2]
    split
    · exact ⟨e1, e2, e3, e4⟩
    · exact ih e1 e2 e3 e4

theorem sortData_mem {f : Frame} {rows data : List (List Val)} (h : sortData f rows = .ok data) :
    (∀ r ∈ data, r ∈ rows) ∧ (rows ≠ [] → data ≠ []) := by
  have p := (sortData_spec h).1
  refine ⟨fun r hr => p.mem_iff.mp hr, fun hne e => ?_⟩
  rw [e] at p
  exact hne p.nil_eq.symm

/-- A resample has as many rows as the data. -/
theorem pick_length {α : Type} {xs : List α} {L : ℕ} {row : List ℕ} (hl : row.length = xs.length)
    (hlt : ∀ i ∈ row, i < xs.length) : (pick xs (positionsUsed L row)).length = xs.length := by
  have hb : ∀ i ∈ positionsUsed L row, i < xs.length := positions_lt hl hlt
  obtain ⟨ys, t1, t2, -⟩ := takeIdx_ok xs (positionsUsed L row) hb
  rw [takeIdx_pick xs _ hb] at t1
  simp only [Except.ok.injEq] at t1
  rw [t1, t2, positions_length, hl]

/-- A resample of rows is not empty. -/
theorem pick_ne {α : Type} {xs : List α} (hne : xs ≠ []) (L : ℕ) {row : List ℕ} (hl : row.length = xs.length)
    (hlt : ∀ i ∈ row, i < xs.length) : pick xs (positionsUsed L row) ≠ [] := by
  intro e0
  have h := pick_length (L := L) hl hlt
  rw [e0] at h
  exact hne (List.length_eq_zero_iff.mp h.symm)

/-- A derived curve that is no DIFF_SIG or ETB: its value with one iteration is the rounded one with many. -/
theorem derived_same {statOf : String → List (List Val) → Except PyErr PyNum} {etb : List PyNum → List PyNum → PyNum}
    {s : BootSettings} {f : Frame} {c : AggConfig} {stat op : String} {a₁ a₂ : PointResult} {rows₁ rows₂ : List (List Val)}
    {ids : List (List ℕ)} {w : PyNum} {r : BootResult} {k : ℕ} (hf : FrameWF f) (hm : s.method ≠ .other)
    (hkey : ∀ st ∈ c.stats, ∀ rows, rows ≠ [] → (∀ r ∈ rows, r ∈ f.rows) → statOf (lower st) rows ≠ .error .keyError)
    (k₁ : KeptRows statOf f c a₁) (k₂ : KeptRows statOf f c a₂) (e₁ : a₁.rows = some rows₁) (e₂ : a₂.rows = some rows₂)
    (hids : IndexMatrix rows₁.length k ids) (hop : op ≠ "ETB") (hsig : op ≠ "DIFF_SIG")
    (h1 : derivedValue (sortedStat statOf f) etb stat op a₁.value a₂.value rows₁ rows₂ = .ok w)
    (h2 : derivedBoot statOf etb s f op rows₁ rows₂ ids = .ok r) :
    (w = .none ∧ r.value = none) ∨ ∃ q x, w = .num x ∧ r.value = some q ∧ |x - q| ≤ (1 / 2) / 10 ^ 5 := by
  obtain ⟨n1, m1, s₁, c1, st1, data₁, d1, v1⟩ := k₁ rows₁ e₁
  obtain ⟨n2, m2, s₂, c2, st2, data₂, d2, v2⟩ := k₂ rows₂ e₂
  unfold derivedBoot at h2
  simp only [d1, d2, bind, Except.bind] at h2
  cases hj : joinSeries op data₁ data₂ with
  | error e => rw [hj] at h2; simp at h2
  | ok both =>
    rw [hj] at h2
    simp only at h2
    obtain ⟨hlen, hfst, hsnd, hlast⟩ := join_halves hj (w := f.cols.length)
      (fun r hr => hf r (m1 r ((sortData_mem d1).1 r hr))) (fun r hr => hf r (m2 r ((sortData_mem d2).1 r hr)))
    have hdn1 : data₁ ≠ [] := (sortData_mem d1).2 n1
    have hdn2 : data₂ ≠ [] := (sortData_mem d2).2 n2
    have hbl : both.length = rows₁.length := by
      rw [← (sortData_spec d1).1.length_eq, ← hfst, List.length_map]
    have hbne : both ≠ [] := by
      intro e
      rw [e] at hfst
      exact hdn1 (by simpa using hfst.symm)
    by_cases hst : "stat_name" ∈ f.cols
    · obtain ⟨j, hj'⟩ : ∃ j, f.idx? "stat_name" = some j := by
        cases hx : f.idx? "stat_name" with
        | some j => exact ⟨j, rfl⟩
        | none =>
          exfalso
          unfold Frame.idx? at hx
          rw [List.findIdx?_eq_none_iff] at hx
          simpa using hx _ hst
      have hrow : ∀ (rows data xs : List (List Val)) (st : String), (∀ r ∈ rows, HasCell f r "stat_name" (.str st)) →
          (∀ r ∈ data, r ∈ rows) → (∀ r ∈ xs, r ∈ data) → xs ≠ [] → rowStat f xs = .ok (lower st) := by
        intro rows data xs st hc hsub hxs hne
        cases xs with
        | nil => exact absurd rfl hne
        | cons x xs =>
          unfold rowStat
          rw [hj']
          simp only
          rw [hasCell_unique hj' (hc x (hsub x (hxs x (by simp))))]
      -- the joined rows, or a resample of them
      have hcalc : ∀ rows, rows ≠ [] → (∀ r ∈ rows, r ∈ both) →
          calcStatsDerived statOf etb f rows = (do
            let a ← statOf (lower s₁) (rows.map firstHalf)
            let b ← statOf (lower s₂) (rows.map secondHalf)
            .ok (match calcDerivedCurveValue etb (some [a]) (some [b]) op with
              | some (.inl (x :: _)) => x
              | some (.inr x) => x
              | _ => .none)) := by
        intro rows hne hsub
        have r1 : rowStat f (rows.map firstHalf) = .ok (lower s₁) := by
          refine hrow rows₁ data₁ _ s₁ (st1 hst) (sortData_mem d1).1 ?_ (by simpa using hne)
          intro r hr
          obtain ⟨b, hb, rfl⟩ := List.mem_map.mp hr
          rw [← hfst]
          exact List.mem_map_of_mem (hsub b hb)
        have r2 : rowStat f (rows.map secondHalf) = .ok (lower s₂) := by
          refine hrow rows₂ data₂ _ s₂ (st2 hst) (sortData_mem d2).1 ?_ (by simpa using hne)
          intro r hr
          obtain ⟨b, hb, rfl⟩ := List.mem_map.mp hr
          rw [← hsnd]
          exact List.mem_map_of_mem (hsub b hb)
        unfold calcStatsDerived
        simp only [r1, r2, bind, Except.bind]
        cases hA : statOf (lower s₁) (rows.map firstHalf) with
        | error e => rfl
        | ok a =>
          simp only
          cases hB : statOf (lower s₂) (rows.map secondHalf) with
          | error e => rfl
          | ok b =>
            simp only
            cases rows with
            | nil => exact absurd rfl hne
            | cons r rest =>
              simp only
              rw [hlast r (hsub r (by simp))]
              change Except.ok (match calcDerivedCurveValue etb (some [a]) (some [b]) op with
                | some (.inl (x :: _)) => x
                | some (.inr x) => x
                | _ => PyNum.none) = _
              rfl
      have hv := hcalc both hbne (fun _ h => h)
      rw [hfst, hsnd, v1, v2] at hv
      simp only [bind, Except.bind] at hv
      rw [hv] at h2
      simp only at h2
      rw [generate_pick both _ k ids (by rw [hbl]; exact hids)] at h2
      simp only at h2
      generalize blockLength s both.length = L at h2
      -- the distribution
      have hres : r.value = PyNum.cell (match calcDerivedCurveValue etb (some [a₁.value]) (some [a₂.value]) op with
          | some (.inl (x :: _)) => x
          | some (.inr x) => x
          | _ => .none) := by
        cases hd : (ids.map (fun row => pick both (positionsUsed L row))).mapM (calcStatsDerived statOf etb f) with
        | error e =>
          rw [hd] at h2
          obtain ⟨rows, hr, he⟩ := mapM_error _ hd
          obtain ⟨row, hrow', rfl⟩ := List.mem_map.mp hr
          have hne : pick both (positionsUsed L row) ≠ [] :=
            pick_ne hbne L (by rw [hbl]; exact (hids.2 row hrow').1) (by rw [hbl]; exact (hids.2 row hrow').2)
          rw [hcalc _ hne (fun r hr => pick_mem hr)] at he
          simp only [bind, Except.bind] at he
          cases hA : statOf (lower s₁) ((pick both (positionsUsed L row)).map firstHalf) with
          | error e' =>
            rw [hA] at he
            simp only [Except.error.injEq] at he
            subst he
            have hk := hkey s₁ c1 ((pick both (positionsUsed L row)).map firstHalf) (by simpa using hne) (by
              intro r hr
              obtain ⟨b, hb, rfl⟩ := List.mem_map.mp hr
              exact m1 _ ((sortData_mem d1).1 _ (hfst ▸ List.mem_map_of_mem (pick_mem hb))))
            cases e' <;> first | exact absurd hA hk | simp [catchKeyError] at h2
          | ok a =>
            rw [hA] at he
            simp only at he
            cases hB : statOf (lower s₂) ((pick both (positionsUsed L row)).map secondHalf) with
            | error e' =>
              rw [hB] at he
              simp only [Except.error.injEq] at he
              subst he
              have hk := hkey s₂ c2 ((pick both (positionsUsed L row)).map secondHalf) (by simpa using hne) (by
                intro r hr
                obtain ⟨b, hb, rfl⟩ := List.mem_map.mp hr
                exact m2 _ ((sortData_mem d2).1 _ (hsnd ▸ List.mem_map_of_mem (pick_mem hb))))
              cases e' <;> first | exact absurd hB hk | simp [catchKeyError] at h2
            | ok b => rw [hB] at he; simp at he
        | ok dist =>
          rw [hd] at h2
          simp only at h2
          cases hci : confidenceInterval (dist.map PyNum.cell) (PyNum.cell
              (match calcDerivedCurveValue etb (some [a₁.value]) (some [a₂.value]) op with
              | some (.inl (x :: _)) => x
              | some (.inr x) => x
              | _ => .none)) s.alpha s.method with
          | error e =>
            rw [hci] at h2
            cases e <;> first | exact absurd hci (ci_not_keyError _ _ _ _) | simp [catchKeyError] at h2
          | ok r' =>
            rw [hci] at h2
            simp only [catchKeyError, Except.ok.injEq] at h2
            rw [← h2]
            exact ci_value hm hci
      -- one iteration
      unfold derivedValue at h1
      simp only [hop, hsig, if_false, bind, Except.bind] at h1
      rw [hres]
      cases hc : calcDerivedCurveValue etb (some [a₁.value]) (some [a₂.value]) op with
      | none =>
        rw [hc] at h1
        simp only [Except.ok.injEq] at h1
        exact Or.inl ⟨h1.symm, rfl⟩
      | some t =>
        rw [hc] at h1
        cases t with
        | inr x => simp at h1
        | inl l =>
          cases l with
          | nil => simp at h1
          | cons x l =>
            simp only at h1
            cases x with
            | none => simp [roundDerived] at h1
            | nan => simp [roundDerived] at h1
            | num q =>
              simp only [roundDerived, Except.ok.injEq] at h1
              exact Or.inr ⟨q, _, h1.symm, rfl, round_close q 5⟩
    · exfalso
      have hnone : f.idx? "stat_name" = none := by
        unfold Frame.idx?
        rw [List.findIdx?_eq_none_iff]
        intro x hx
        simp only [beq_eq_false_iff_ne, ne_eq]
        rintro rfl
        exact hst hx
      have : calcStatsDerived statOf etb f both = .error .indexError := by
        unfold calcStatsDerived rowStat
        rw [hnone]
        rfl
      rw [this] at h2
      simp [catchKeyError] at h2

theorem derived_etb {statOf : String → List (List Val) → Except PyErr PyNum} {etb : List PyNum → List PyNum → PyNum}
    {stat : String} {v₁ v₂ w : PyNum} {rows₁ rows₂ : List (List Val)}
    (h : derivedValue statOf etb stat "ETB" v₁ v₂ rows₁ rows₂ = .ok w) : w = .none := by
  unfold derivedValue at h
  simp only [if_true, bind, Except.bind] at h
  split at h
  · simp at h
  · split at h
    · simp at h
    · next l₁ _ _ l₂ _ =>
      have hc : calcDerivedCurveValue etb (some l₁) (some l₂) "ETB" = none ∨
          ∃ x, calcDerivedCurveValue etb (some l₁) (some l₂) "ETB" = some (.inr x) := by
        unfold calcDerivedCurveValue
        simp only
        split
        · exact Or.inl rfl
        · exact Or.inr ⟨etb l₁ l₂, by simp⟩
      rcases hc with hc | ⟨x, hc⟩
      · rw [hc] at h
        simp at h
        exact h.symm
      · rw [hc] at h
        simp at h

/-! ### Both loops -/

/-- What the plot description and the input have to satisfy: the rows fit the columns, the fields of the points are different
names, every requested value stands for values, and the statistics are names, not numbers or lists. -/
structure BootRequest (f : Frame) (c : AggConfig) : Prop where
  wf : FrameWF f
  fields : FieldsDistinct c
  values : ∀ q ∈ requestedValues c, ∀ v ∈ q.2, ∃ vals, StandsFor v vals
  stats : ∀ s ∈ c.stats, ':' ∉ s.toList ∧ ';' ∉ s.toList ∧ PlainText s

theorem point_last {c : AggConfig} {p : List String}
    (hfo : List.Forall₂ (fun x l => x ∈ l) p ((requestedValues c).map Prod.snd)) :
    ∃ a s, p = a ++ [s] ∧ s ∈ c.stats ∧ ("stat_name", s) ∈ ((requestedValues c).map Prod.fst).zip p := by
  unfold requestedValues at hfo ⊢
  rw [List.map_append] at hfo
  generalize c.series ++ (if c.indyVals = [] then [] else [(c.indyVar, c.indyVals)]) = l at hfo
  obtain ⟨a, b, h1, h2, h3⟩ : ∃ a b, List.Forall₂ (fun x l => x ∈ l) a (l.map Prod.snd) ∧
      List.Forall₂ (fun x l => x ∈ l) b [c.stats] ∧ p = a ++ b := by
    refine ⟨p.take (l.map Prod.snd).length, p.drop (l.map Prod.snd).length, ?_, ?_, (List.take_append_drop _ _).symm⟩
    · exact List.forall₂_take_append _ _ _ hfo
    · exact List.forall₂_drop_append _ _ _ hfo
  cases h2 with
  | @cons s _ _ _ hs hnil =>
    cases hnil
    refine ⟨a, s, h3, hs, ?_⟩
    rw [h3, List.map_append, List.zip_append (by simpa using h1.length_eq.symm)]
    simp

/-- The rows selected for a plain point: rows of the input whose statistic is that of the point. -/
theorem plain_rows {f : Frame} {c : AggConfig} (R : BootRequest f c) {p : List String} (hp : p ∈ c.plainPoints)
    {rows : List (List Val)} (hr : pointRows f ((c.fields.map Prod.fst).zip p) c.fcstVars.head? = .ok rows) :
    (∀ r ∈ rows, r ∈ f.rows) ∧ ∃ s ∈ c.stats, (∀ old, pointStat c.stats p old = lower s) ∧
      ("stat_name" ∈ f.cols → ∀ r ∈ rows, HasCell f r "stat_name" (.str s)) := by
  have hfe := fields_eq R.fields
  have hfo : List.Forall₂ (fun x l => x ∈ l) p ((requestedValues c).map Prod.snd) := by
    rw [AggConfig.plainPoints, mem_product, hfe] at hp
    exact hp
  obtain ⟨a, s, e, hs, hz⟩ := point_last hfo
  rw [hfe] at hr
  unfold pointRows at hr
  split at hr
  · simp at hr
  · simp only [Except.ok.injEq] at hr
    have hreq : ∀ q ∈ ((requestedValues c).map Prod.fst).zip p, ∃ vals, StandsFor q.2 vals := by
      intro q hq
      obtain ⟨l, hl, hx⟩ := forall₂_mem_any hfo (List.of_mem_zip hq).2
      obtain ⟨w, hw, rfl⟩ := List.mem_map.mp hl
      exact R.values w hw _ hx
    refine ⟨fun r h => ?_, s, hs, fun old => by rw [e]; exact pointStat_last _ _ _ _ hs, fun hc r h => ?_⟩
    · rw [← hr] at h
      exact (List.mem_filter.mp h).1
    · rw [← hr] at h
      obtain ⟨m1, m2⟩ := List.mem_filter.mp h
      have := (pointFilters_iff R.wf hreq m1).mp m2
      obtain ⟨v, hv, ha⟩ := this.1 _ hz hc
      obtain ⟨c1, c2, c3⟩ := R.stats s hs
      rw [cellAmong_text (plain_standsFor c1 c2) (by simpa using c3)] at ha
      obtain ⟨w, hw, rfl⟩ := ha
      simp only [List.mem_singleton] at hw
      rw [← hw]
      exact hv

theorem seriesTry_value {statOf : String → List (List Val) → Except PyErr PyNum} {s : BootSettings} {stat : String}
    {data : List (List Val)} {ids : List (List ℕ)} {k : ℕ} (hids : IndexMatrix data.length k ids) (hm : s.method ≠ .other)
    (hkey : ∀ rows, rows ≠ [] → (∀ r ∈ rows, r ∈ data) → statOf stat rows ≠ .error .keyError) (hne : data ≠ []) {v : PyNum} (hv : statOf stat data = .ok v) :
    seriesTry statOf s stat data ids ≠ .error .keyError ∧
      ∀ r, seriesTry statOf s stat data ids = .ok r → r.value = v.cell := by
  unfold seriesTry
  rw [hv, generate_pick data _ k ids hids]
  simp only [bind, Except.bind]
  cases hd : (ids.map (fun row => pick data (positionsUsed (blockLength s data.length) row))).mapM (statOf stat) with
  | error e =>
    obtain ⟨zs, hm', hz⟩ := mapM_error _ hd
    obtain ⟨row, hrow, rfl⟩ := List.mem_map.mp hm'
    refine ⟨?_, by simp⟩
    simp only [ne_eq, Except.error.injEq]
    rintro rfl
    exact hkey _ (pick_ne hne _ (hids.2 row hrow).1 (hids.2 row hrow).2) (fun r hr => pick_mem hr) hz
  | ok dist =>
    exact ⟨ci_not_keyError _ _ _ _, fun r hr => ci_value hm hr⟩

/-- The states of both loops. -/
def SameState (statOf : String → List (List Val) → Except PyErr PyNum) (f : Frame) (c : AggConfig)
    (a : AggState) (b : BootState) : Prop :=
  a.stat = b.stat ∧ List.Forall₂ (SameResult statOf f c) a.results b.results ∧ List.Forall₂ SameRow a.out b.out

theorem step_plain {statOf : String → List (List Val) → Except PyErr PyNum} {etb : List PyNum → List PyNum → PyNum}
    {s : BootSettings} {draws : ℕ → ℕ → List (List ℕ)} {f : Frame} {c : AggConfig} {curves : List (String × DerivedCurve)}
    {k : ℕ} (R : BootRequest f c) (hm : s.method ≠ .other)
    (hkey : ∀ st ∈ c.stats, ∀ rows, rows ≠ [] → (∀ r ∈ rows, r ∈ f.rows) → statOf (lower st) rows ≠ .error .keyError)
    (hdraw : ∀ i n, IndexMatrix n k (draws i n)) {a a' : AggState} {b b' : BootState} (h : SameState statOf f c a b)
    {p : List String} (hd : isDerivedPoint (some p) = false) (hp : p ∈ c.plainPoints)
    (h1 : aggStep (sortedStat statOf f) etb f c curves a p = .ok a')
    (h2 : bootStep statOf etb s draws f c curves b p = .ok b') : SameState statOf f c a' b' := by
  obtain ⟨e1, e2, e3⟩ := h
  unfold aggStep at h1
  unfold bootStep at h2
  simp only [hd, Bool.false_eq_true, if_false, bind, Except.bind] at h1 h2
  cases hr : pointRows f ((c.fields.map Prod.fst).zip p) c.fcstVars.head? with
  | error e => rw [hr] at h1; simp at h1
  | ok rows =>
    rw [hr] at h1 h2
    simp only at h1 h2
    obtain ⟨m1, st, hst, hps, hcell⟩ := plain_rows R hp hr
    rw [← e1] at h2
    rw [hps] at h1 h2
    by_cases he : rows = []
    · subst he
      simp only [List.isEmpty_nil, if_true, plainBoot, Except.ok.injEq] at h1 h2
      rw [← h1, ← h2]
      refine ⟨rfl, putPoint_rel e2 (fun _ _ h => h.1) ⟨rfl, rfl, rfl, ?_⟩, forall₂_append' e3 (.cons ?_ .nil)⟩
      · intro rows hrows
        simp at hrows
      · exact ⟨rfl, rfl, rfl, fun _ q => by simp [toPyNum], fun h => by rw [hd] at h; simp at h⟩
    · have hb : rows.isEmpty = false := by simpa using he
      simp only [hb, Bool.false_eq_true, if_false, plainBoot, sortedStat, bind, Except.bind] at h1 h2
      cases hs : sortData f rows with
      | error e => rw [hs] at h1; simp at h1
      | ok data =>
        rw [hs] at h1 h2
        simp only at h1 h2
        cases hv : statOf (lower st) data with
        | error e => rw [hv] at h1; simp at h1
        | ok v =>
          rw [hv] at h1
          simp only [Except.ok.injEq] at h1
          have hlen : data.length = rows.length := (sortData_spec hs).1.length_eq
          obtain ⟨t1, t2⟩ := seriesTry_value (s := s) (k := k) (ids := draws b.out.length rows.length)
            (by rw [hlen]; exact hdraw _ _) hm
            (fun zs h1 h2 => hkey st hst zs h1 (fun r hr => m1 r ((sortData_mem hs).1 r (h2 r hr)))) ((sortData_mem hs).2 he) hv
          cases ht : seriesTry statOf s (lower st) data (draws b.out.length rows.length) with
          | error e =>
            rw [ht] at h2 t1
            cases e <;> first | exact absurd rfl t1 | simp at h2
          | ok r =>
            rw [ht] at h2
            simp only [Except.ok.injEq] at h2
            have hval := t2 r ht
            rw [← h1, ← h2]
            refine ⟨rfl, putPoint_rel e2 (fun _ _ h => h.1) ⟨rfl, rfl, by rw [hval], ?_⟩, forall₂_append' e3 (.cons ?_ .nil)⟩
            · intro rows' hrows'
              simp only [Option.some.injEq] at hrows'
              subst hrows'
              exact ⟨he, m1, st, hst, hcell, data, hs, hv⟩
            · refine ⟨rfl, rfl, rfl, fun _ q => ?_, fun h => by rw [hd] at h; simp at h⟩
              simp only [hval]
              cases v <;> simp [PyNum.cell, toPyNum]

theorem step_derived {statOf : String → List (List Val) → Except PyErr PyNum} {etb : List PyNum → List PyNum → PyNum}
    {s : BootSettings} {draws : ℕ → ℕ → List (List ℕ)} {f : Frame} {c : AggConfig} {curves : List (String × DerivedCurve)}
    {k : ℕ} (R : BootRequest f c) (hm : s.method ≠ .other)
    (hkey : ∀ st ∈ c.stats, ∀ rows, rows ≠ [] → (∀ r ∈ rows, r ∈ f.rows) → statOf (lower st) rows ≠ .error .keyError)
    (hdraw : ∀ i n, IndexMatrix n k (draws i n)) (hsig : ∀ n cv, curves.lookup n = some cv → cv.op ≠ "DIFF_SIG")
    {a a' : AggState} {b b' : BootState} (h : SameState statOf f c a b)
    {p : List String} (hd : isDerivedPoint (some p) = true)
    (h1 : aggStep (sortedStat statOf f) etb f c curves a p = .ok a')
    (h2 : bootStep statOf etb s draws f c curves b p = .ok b') : SameState statOf f c a' b' := by
  obtain ⟨e1, e2, e3⟩ := h
  unfold aggStep at h1
  unfold bootStep at h2
  simp only [hd, if_true, bind, Except.bind] at h1 h2
  rw [← e1] at h2
  generalize pointStat c.stats p a.stat = stat at h1 h2
  cases hw : derivedPoint (sortedStat statOf f) etb f.cols c.groups curves stat a.results p with
  | error e => rw [hw] at h1; simp at h1
  | ok w =>
    rw [hw] at h1
    simp only [Except.ok.injEq] at h1
    cases hv : derivedPointBoot statOf etb s f c.groups curves stat b.results p (draws b.out.length) with
    | error e => rw [hv] at h2; simp at h2
    | ok v =>
      rw [hv] at h2
      simp only [Except.ok.injEq] at h2
      rw [← h1, ← h2]
      refine ⟨rfl, e2, forall₂_append' e3 (.cons ⟨rfl, rfl, rfl, fun h => by rw [hd] at h; simp at h, fun _ => ?_⟩ .nil)⟩
      change (w = .none ∧ v.1 = .none) ∨ ∃ q r, w = .num r ∧ v.1 = .num q ∧ |r - q| ≤ (1 / 2) / 10 ^ 5
      unfold derivedPoint at hw
      unfold derivedPointBoot at hv
      cases hl : curves.lookup (derivedNameOf p) with
      | none => rw [hl] at hw; simp at hw
      | some cv =>
        rw [hl] at hw hv
        simp only at hw hv
        obtain ⟨f1, f2, f3, f4⟩ := findPair_rel (R := SameResult statOf f c) (fun _ _ h => h.1)
          (fullComponents c.groups cv.first p) (fullComponents c.groups cv.second p) e2 (x := none) (y := none) (x' := none)
          (y' := none) (by simp) (by simp) (by simp) (by simp)
        generalize findPair (fullComponents c.groups cv.first p) (fullComponents c.groups cv.second p) a.results none none =
          pa at *
        generalize findPair (fullComponents c.groups cv.first p) (fullComponents c.groups cv.second p) b.results none none =
          pb at *
        obtain ⟨a₁, a₂⟩ := pa
        obtain ⟨b₁, b₂⟩ := pb
        cases a₁ with
        | none => simp at hw
        | some a₁ =>
          cases a₂ with
          | none => simp at hw
          | some a₂ =>
            obtain ⟨k₁, b₁', hb₁, r₁⟩ := f1 a₁ rfl
            obtain ⟨k₂, b₂', hb₂, r₂⟩ := f3 a₂ rfl
            simp only at hb₁ hb₂
            subst hb₁
            subst hb₂
            simp only at hw hv
            obtain ⟨-, q1, q2, q3⟩ := r₁
            obtain ⟨-, u1, u2, u3⟩ := r₂
            simp only at q1 q2 q3 u1 u2 u3
            rw [← q1, ← u1] at hv
            simp only [bind, Except.bind] at hw hv
            cases hc : checkDerived f.cols cv.op (fullComponents c.groups cv.first p) (fullComponents c.groups cv.second p)
                (a₁.rows.getD []) (a₂.rows.getD []) with
            | error e => rw [hc] at hw; simp at hw
            | ok t =>
              rw [hc] at hw hv
              simp only at hw hv
              have ht := checkDerived_ok hc
              cases t with
              | false =>
                simp only [Bool.false_eq_true, if_false, Except.ok.injEq] at hw hv
                rw [← hv]
                exact Or.inl ⟨hw.symm, rfl⟩
              | true =>
                simp only [if_true] at hw hv
                by_cases hetb : cv.op = "ETB"
                · rw [hetb] at hw hv
                  simp only [if_true] at hv
                  cases hx : derivedValue statOf etb stat "ETB" b₁'.value b₂'.value (a₁.rows.getD []) (a₂.rows.getD []) with
                  | error e => rw [hx] at hv; simp at hv
                  | ok x =>
                    rw [hx] at hv
                    simp only [Except.ok.injEq] at hv
                    rw [← hv]
                    exact Or.inl ⟨derived_etb hw, derived_etb hx⟩
                · have hop := hsig _ _ hl
                  simp only [hetb, hop, if_false] at hv
                  cases hx : derivedBoot statOf etb s f cv.op (a₁.rows.getD []) (a₂.rows.getD [])
                      (draws b.out.length (a₁.rows.getD []).length) with
                  | error e => rw [hx] at hv; simp at hv
                  | ok x =>
                    rw [hx] at hv
                    simp only [Except.ok.injEq] at hv
                    rw [← hv]
                    obtain ⟨rows₁, hr₁⟩ : ∃ rows, a₁.rows = some rows := by
                      cases hh : a₁.rows with
                      | some rows => exact ⟨rows, rfl⟩
                      | none => rw [hh] at ht; simp at ht
                    obtain ⟨rows₂, hr₂⟩ : ∃ rows, a₂.rows = some rows := by
                      cases hh : a₂.rows with
                      | some rows => exact ⟨rows, rfl⟩
                      | none => rw [hh] at ht; simp at ht
                    rw [hr₁, hr₂] at hw hx
                    simp only [Option.getD_some] at hw hx
                    rcases derived_same R.wf hm hkey q3 u3 hr₁ hr₂ (hdraw _ _) hetb hop hw hx with ⟨o1, o2⟩ | ⟨q, y, o1, o2, o3⟩
                    · exact Or.inl ⟨o1, by simp [o2, toPyNum]⟩
                    · exact Or.inr ⟨q, y, o1, by simp [o2, toPyNum], o3⟩

theorem loops_same {σ τ α : Type} (g : σ → α → Except PyErr σ) (k : τ → α → Except PyErr τ) (R : σ → τ → Prop)
    (l : List α) (hstep : ∀ x ∈ l, ∀ s t s' t', R s t → g s x = .ok s' → k t x = .ok t' → R s' t') :
    ∀ s t s' t', R s t → l.foldlM g s = .ok s' → l.foldlM k t = .ok t' → R s' t' := by
  induction l with
  | nil =>
    intro s t s' t' h h1 h2
    simp only [List.foldlM_nil, pure, Except.pure, Except.ok.injEq] at h1 h2
    exact h1 ▸ h2 ▸ h
  | cons x l ih =>
    intro s t s' t' h h1 h2
    obtain ⟨s₁, g1, g2⟩ := foldlM_except_cons _ _ _ _ h1
    obtain ⟨t₁, k1, k2⟩ := foldlM_except_cons _ _ _ _ h2
    exact ih (fun y hy => hstep y (by simp [hy])) _ _ _ _ (hstep x (by simp) _ _ _ _ h g1 k1) g2 k2

theorem lookup_mem_curves {β : Type} (entries : List (String × β)) (n : String) (v : β) (d : List (String × β))
    (h : (entries.foldl (fun d e => dictSet d e.1 e.2) d).lookup n = some v) :
    (∃ e ∈ entries, e.2 = v) ∨ d.lookup n = some v := by
  induction entries generalizing d with
  | nil => exact Or.inr h
  | cons e entries ih =>
    rw [List.foldl_cons] at h
    rcases ih _ h with ⟨x, hx, hv⟩ | hd
    · exact Or.inl ⟨x, by simp [hx], hv⟩
    · rw [dictSet_lookup] at hd
      split at hd
      · simp only [Option.some.injEq] at hd
        exact Or.inl ⟨e, by simp, hd⟩
      · exact Or.inr hd

theorem derivedEntry_op {c : AggConfig} {d : List String} {e : String × DerivedCurve × List (List String)}
    (h : derivedEntry c d = .ok e) : d.getLast? = some e.2.1.op := by
  unfold derivedEntry at h
  split at h
  · simp at h
  · simp at h
  · next a b rest =>
    cases hd : firstDifference (spaceParts a) (spaceParts b) with
    | error er => rw [hd] at h; simp [bind, Except.bind] at h
    | ok diff =>
      cases hv : operationVar c.series diff with
      | error er => rw [hd] at h; simp [bind, Except.bind, hv] at h
      | ok var =>
        cases hn : getDerivedCurveName (a :: b :: rest) with
        | error er => rw [hd] at h; simp [bind, Except.bind, hv, hn] at h
        | ok name =>
          rw [hd] at h
          simp only [bind, Except.bind, hv, hn, Except.ok.injEq] at h
          subst h
          simp only
          rw [List.getLast?_eq_some_getLast (by simp), List.getLastD_eq_getLast?, List.getLast?_eq_some_getLast (by simp)]
          rfl

/-- C257 (partial): whatever is drawn at random, if the aggregation completes without bootstrapping and with it, both tables
have the same rows: the same points, forecast variables and numbers of cases, and the same values (rounded to five decimals
for derived curves without bootstrapping).  Missing from the full claim: curves for DIFF_SIG, whose value needs resamples,
and methods other than 'perc' and 'pivotal' (`C257_counterexample`). -/
theorem C257_same_values_partial {f : Frame} {c : AggConfig} (R : BootRequest f c)
    (statOf : String → List (List Val) → Except PyErr PyNum) (etb : List PyNum → List PyNum → PyNum) (s : BootSettings)
    (draws : ℕ → ℕ → List (List ℕ)) (k : ℕ) (hm : s.method ≠ .other)
    (hkey : ∀ st ∈ c.stats, ∀ rows, rows ≠ [] → (∀ r ∈ rows, r ∈ f.rows) → statOf (lower st) rows ≠ .error .keyError)
    (hdraw : ∀ i n, IndexMatrix n k (draws i n)) (hsig : ∀ d ∈ c.derived, d.getLast? ≠ some "DIFF_SIG")
    (out : List AggOut) (outB : List BootOut)
    (h1 : aggAxis (sortedStat statOf f) etb f c = .ok out) (h2 : bootAxis statOf etb s draws f c = .ok outB) :
    List.Forall₂ SameRow out outB := by
  unfold aggAxis at h1
  unfold bootAxis at h2
  by_cases he : f.isEmpty = true
  · simp only [he, if_true, Except.ok.injEq] at h1 h2
    rw [← h1, ← h2]
    exact .nil
  · simp only [he, Bool.false_eq_true, if_false] at h1 h2
    cases hm' : c.derived.mapM (derivedEntry c) with
    | error e => rw [hm'] at h1; simp [bind, Except.bind] at h1
    | ok entries =>
      rw [hm'] at h1 h2
      simp only [bind, Except.bind] at h1 h2
      split at h1
      · simp at h1
      · next a ha =>
        split at h2
        · simp at h2
        · next b hb =>
          simp only [Except.ok.injEq] at h1 h2
          have hent := mapM_except_mem _ hm'
          have key := loops_same _ _ (SameState statOf f c) _ ?_ _ _ a b ⟨rfl, .nil, .nil⟩ ha hb
          · rw [← h1, ← h2]
            exact key.2.2
          · intro p hp st st' s' t' hR g1 g2
            cases hd : isDerivedPoint (some p) with
            | false =>
              refine step_plain R hm hkey hdraw hR hd ?_ g1 g2
              rcases List.mem_append.mp hp with h | h
              · exact h
              · obtain ⟨e, he, hpe⟩ := List.mem_flatMap.mp h
                obtain ⟨d, -, hde⟩ := forall₂_right_mem hent he
                rw [(derivedEntry_points R.fields hde).2 p hpe] at hd
                simp at hd
            | true =>
              refine step_derived R hm hkey hdraw ?_ hR hd g1 g2
              intro n cv hl
              rw [show (fun (d : List (String × DerivedCurve)) (e : String × DerivedCurve × List (List String)) =>
                dictSet d e.1 e.2.1) = (fun d e => (fun d (e : String × DerivedCurve) => dictSet d e.1 e.2) d (e.1, e.2.1))
                from rfl, ← List.foldl_map (f := fun e : String × DerivedCurve × List (List String) => (e.1, e.2.1))
                (g := fun d (e : String × DerivedCurve) => dictSet d e.1 e.2)] at hl
              rcases lookup_mem_curves _ _ _ _ hl with ⟨e, he, rfl⟩ | h
              · obtain ⟨e', he', rfl⟩ := List.mem_map.mp he
                obtain ⟨d, hdm, hde⟩ := forall₂_right_mem hent he'
                intro hop
                exact hsig d hdm (by rw [derivedEntry_op hde]; exact congrArg some hop)
              · simp at h

/-! ### Examples -/

/-- Errors of two models at two times. -/
def bootTable : Frame :=
  { cols := ["model", "fcst_var", "stat_name", "fcst_valid_beg", "fcst_lead", "x"]
    rows := [[.str "A", .str "TMP", .str "ME", .str "t2", .num 12 "12", .num 4 "4"],
             [.str "A", .str "TMP", .str "ME", .str "t1", .num 12 "12", .num 1 "1"],
             [.str "B", .str "TMP", .str "ME", .str "t1", .num 12 "12", .num (1 / 3) ""],
             [.str "B", .str "TMP", .str "ME", .str "t2", .num 12 "12", .num 10 "10"]] }

def bootPlot (op : String) : AggConfig :=
  { series := [("model", ["A", "B"])], indyVar := "fcst_lead", indyVals := ["12"], stats := ["ME"],
    derived := [["A TMP ME", "B TMP ME", op]], fcstVars := ["TMP"], groups := [] }

/-- The mean of the column `x`. -/
def meanOfX (_ : String) (rows : List (List Val)) : Except PyErr PyNum :=
  .ok (.num ((rows.map (fun r => match cellAt r 5 with | .num q _ => q | _ => 0)).sum / rows.length))

/-- Three drawn sets of positions: the first row every time, all rows, the last row every time. -/
def threeDraws (_ n : ℕ) : List (List ℕ) := [List.replicate n 0, List.range n, List.replicate n (n - 1)]

theorem threeDraws_ok (i n : ℕ) : IndexMatrix n 3 (threeDraws i n) := by
  refine ⟨rfl, ?_⟩
  intro row hrow
  simp only [threeDraws, List.mem_cons, List.not_mem_nil, or_false] at hrow
  rcases hrow with rfl | rfl | rfl
  · refine ⟨by simp, fun j hj => ?_⟩
    obtain ⟨h1, rfl⟩ := List.mem_replicate.mp hj
    omega
  · exact ⟨by simp, fun j hj => by simpa using hj⟩
  · refine ⟨by simp, fun j hj => ?_⟩
    obtain ⟨h1, rfl⟩ := List.mem_replicate.mp hj
    omega

theorem bootTable_request (op : String) : BootRequest bootTable (bootPlot op) where
  wf := by unfold FrameWF; decide
  fields := by simp [FieldsDistinct, bootPlot]
  values := by
    intro q hq v hv
    have : v ∈ ["A", "B", "12", "ME"] := by
      simp only [requestedValues, bootPlot, List.cons_ne_self, if_false, List.cons_append, List.nil_append, List.mem_cons,
        List.not_mem_nil, or_false, reduceCtorEq] at hq
      rcases hq with rfl | rfl | rfl <;> simp_all <;> tauto
    simp only [List.mem_cons, List.not_mem_nil, or_false] at this
    rcases this with rfl | rfl | rfl | rfl <;> exact ⟨_, plain_standsFor (by decide) (by decide)⟩
  stats := by
    intro s hs
    simp only [bootPlot, List.mem_singleton] at hs
    subst hs
    exact ⟨by decide, by decide, plainText_of (by decide) (by decide) (by decide)⟩

/-- The table without bootstrapping, ... -/
theorem bootTable_once : aggAxis (sortedStat meanOfX bootTable) (fun _ _ => .none) bootTable (bootPlot "DIFF") = .ok
    [⟨["A", "12", "ME"], some "TMP", .num (5 / 2), 2⟩, ⟨["B", "12", "ME"], some "TMP", .num (31 / 6), 2⟩,
     ⟨["DIFF(A TMP ME-B TMP ME)", "12", "ME"], some "TMP", .num (-266667 / 100000), 0⟩] := by decide +kernel

/-- ... and with it. -/
theorem bootTable_many : bootAxis meanOfX (fun _ _ => .none) ⟨1 / 2, .perc, false⟩ threeDraws bootTable (bootPlot "DIFF") = .ok
    [⟨["A", "12", "ME"], some "TMP", .num (5 / 2), some (43 / 40), some (157 / 40), 2⟩,
     ⟨["B", "12", "ME"], some "TMP", .num (31 / 6), some (23 / 40), some (1171 / 120), 2⟩,
     ⟨["DIFF(A TMP ME-B TMP ME)", "12", "ME"], some "TMP", .num (-8 / 3), some (-13 / 3), some (-1), 0⟩] := by
  decide +kernel

example := C257_same_values_partial (bootTable_request "DIFF") meanOfX (fun _ _ => .none) ⟨1 / 2, .perc, false⟩ threeDraws 3
  (by decide) (by intro st _ rows _ _; simp [meanOfX]) threeDraws_ok (by decide) _ _ bootTable_once bootTable_many

/-- C257 (counterexample): the values do change for a DIFF_SIG curve (1 without bootstrapping, 1/3 with these draws), and with
a method that is neither 'perc' nor 'pivotal' they disappear, although nothing is reported. -/
theorem C257_counterexample :
    (∃ o o', aggAxis (sortedStat meanOfX bootTable) (fun _ _ => .none) bootTable (bootPlot "DIFF_SIG") = .ok o ∧
      bootAxis meanOfX (fun _ _ => .none) ⟨1 / 2, .perc, false⟩ threeDraws bootTable (bootPlot "DIFF_SIG") = .ok o' ∧
      o.map AggOut.value = [.num (5 / 2), .num (31 / 6), .num 1] ∧
      o'.map BootOut.value = [.num (5 / 2), .num (31 / 6), .num (1 / 3)]) ∧
    ∃ o', bootAxis meanOfX (fun _ _ => .none) ⟨1 / 2, .other, false⟩ threeDraws bootTable (bootPlot "DIFF") = .ok o' ∧
      o'.map BootOut.value = [.none, .none, .none] := by
  refine ⟨⟨[⟨["A", "12", "ME"], some "TMP", .num (5 / 2), 2⟩, ⟨["B", "12", "ME"], some "TMP", .num (31 / 6), 2⟩,
     ⟨["DIFF_SIG(A TMP ME-B TMP ME)", "12", "ME"], some "TMP", .num 1, 0⟩],
    [⟨["A", "12", "ME"], some "TMP", .num (5 / 2), some (43 / 40), some (157 / 40), 2⟩,
     ⟨["B", "12", "ME"], some "TMP", .num (31 / 6), some (23 / 40), some (1171 / 120), 2⟩,
     ⟨["DIFF_SIG(A TMP ME-B TMP ME)", "12", "ME"], some "TMP", .num (1 / 3), some (-13 / 3), some (-1), 0⟩],
    by decide +kernel, by decide +kernel, rfl, rfl⟩,
    [⟨["A", "12", "ME"], some "TMP", .none, none, none, 2⟩, ⟨["B", "12", "ME"], some "TMP", .none, none, none, 2⟩,
     ⟨["DIFF(A TMP ME-B TMP ME)", "12", "ME"], some "TMP", .none, none, none, 0⟩], by decide +kernel, rfl⟩

end Metcalcpy.Props
