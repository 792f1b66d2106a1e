/-
C267  The order of the lines of the input does not matter for an aggregation table.
-/
import Verif.Props.C261_CurveLimits
import Verif.Props.C262_CurveCompletes

namespace Metcalcpy.Props

open Metcalcpy Spec

/-! ### Computations that agree -/

/-- Two computations that both fail in the same way or both give results related by `R`. -/
inductive Alike {α β : Type} (R : α → β → Prop) : Except PyErr α → Except PyErr β → Prop
  | error (e : PyErr) : Alike R (.error e) (.error e)
  | ok {a : α} {b : β} (h : R a b) : Alike R (.ok a) (.ok b)

theorem Alike.bind {α β γ δ : Type} {R : α → β → Prop} {S : γ → δ → Prop} {x : Except PyErr α} {y : Except PyErr β}
    (h : Alike R x y) {g : α → Except PyErr γ} {k : β → Except PyErr δ} (hg : ∀ a b, R a b → Alike S (g a) (k b)) :
    Alike S (x >>= g) (y >>= k) := by
  cases h with
  | error e => exact .error e
  | ok h => exact hg _ _ h

theorem Alike.refl {α : Type} (x : Except PyErr α) : Alike (· = ·) x x := by
  cases x with
  | error e => exact .error e
  | ok a => exact .ok rfl

theorem Alike.eq {α : Type} {x y : Except PyErr α} (h : Alike (· = ·) x y) : x = y := by
  cases h with
  | error e => rfl
  | ok h => rw [h]

theorem Alike.foldlM {α β γ : Type} {R : α → β → Prop} {g : α → γ → Except PyErr α} {k : β → γ → Except PyErr β} (l : List γ)
    (h : ∀ x ∈ l, ∀ a b, R a b → Alike R (g a x) (k b x)) : ∀ a b, R a b → Alike R (l.foldlM g a) (l.foldlM k b) := by
  induction l with
  | nil => intro a b hab; exact .ok hab
  | cons x l ih =>
    intro a b hab
    rw [List.foldlM_cons, List.foldlM_cons]
    exact (h x (by simp) a b hab).bind (ih (fun y hy => h y (by simp [hy])))

/-! ### Checks and searches -/

theorem validateSeries_perm (cols : List String) {rows rows' : List (List Val)} (h : rows'.Perm rows) (m : ℕ) :
    validateSeries cols rows' m = validateSeries cols rows m := by
  unfold validateSeries
  have hd : ∀ v l s, ((rows'.map (caseTuple v l s)).dedup).length = ((rows.map (caseTuple v l s)).dedup).length :=
    fun v l s => ((h.map (caseTuple v l s)).dedup).length_eq
  simp only [hd, h.length_eq]

theorem isEmpty_perm {α : Type} {l l' : List α} (h : l'.Perm l) : l'.isEmpty = l.isEmpty := by
  rw [Bool.eq_iff_iff, List.isEmpty_iff, List.isEmpty_iff]
  exact ⟨fun e => by rw [e] at h; exact h.symm.eq_nil, fun e => by rw [e] at h; exact h.eq_nil⟩

theorem checkDerived_perm (cols : List String) (op : String) (first second : List String) {rows₁ rows₂ rows₁' rows₂' : List (List Val)}
    (h₁ : rows₁'.Perm rows₁) (h₂ : rows₂'.Perm rows₂) :
    checkDerived cols op first second rows₁' rows₂' = checkDerived cols op first second rows₁ rows₂ := by
  unfold checkDerived
  rw [isEmpty_perm h₁, isEmpty_perm h₂, validateSeries_perm cols h₁, validateSeries_perm cols h₂]

/-- The results kept for a point agree: the same value, the same rows in another order. -/
def ReorderedResult (Q : List (List Val) → List (List Val) → Prop) (r r' : PointResult) : Prop :=
  r.value = r'.value ∧ (r'.rows.getD []).Perm (r.rows.getD []) ∧ Q (r.rows.getD []) (r'.rows.getD [])

def ReorderedResults (Q : List (List Val) → List (List Val) → Prop) (l l' : List (List String × PointResult)) : Prop :=
  List.Forall₂ (fun a b => a.1 = b.1 ∧ ReorderedResult Q a.2 b.2) l l'

theorem findPair_reordered {Q : List (List Val) → List (List Val) → Prop} (p₁ p₂ : List String) {l l' : List (List String × PointResult)}
    (h : ReorderedResults Q l l') : ∀ d₁ d₂ d₁' d₂', Option.Rel (ReorderedResult Q) d₁ d₁' → Option.Rel (ReorderedResult Q) d₂ d₂' →
      Option.Rel (ReorderedResult Q) (findPair p₁ p₂ l d₁ d₂).1 (findPair p₁ p₂ l' d₁' d₂').1 ∧
      Option.Rel (ReorderedResult Q) (findPair p₁ p₂ l d₁ d₂).2 (findPair p₁ p₂ l' d₁' d₂').2 := by
  induction h with
  | nil => intro d₁ d₂ d₁' d₂' h1 h2; exact ⟨h1, h2⟩
  | @cons a b l l' hab _ ih =>
    intro d₁ d₂ d₁' d₂' h1 h2
    obtain ⟨k, r⟩ := a
    obtain ⟨k', r'⟩ := b
    obtain ⟨hk, hr⟩ := hab
    simp only at hk hr
    subst hk
    have e1 : Option.Rel (ReorderedResult Q) (if k.all (fun x => decide (x ∈ p₁)) then some r else d₁)
        (if k.all (fun x => decide (x ∈ p₁)) then some r' else d₁') := by
      split_ifs
      · exact .some hr
      · exact h1
    have e2 : Option.Rel (ReorderedResult Q) (if k.all (fun x => decide (x ∈ p₂)) then some r else d₂)
        (if k.all (fun x => decide (x ∈ p₂)) then some r' else d₂') := by
      split_ifs
      · exact .some hr
      · exact h2
    unfold findPair
    simp only
    have i1 : ∀ {x y : Option PointResult}, Option.Rel (ReorderedResult Q) x y → x.isSome = y.isSome := by
      intro x y hxy
      cases hxy <;> rfl
    rw [i1 e1, i1 e2]
    generalize (if k.all (fun x => decide (x ∈ p₁)) then some r else d₁) = a₁ at e1
    generalize (if k.all (fun x => decide (x ∈ p₁)) then some r' else d₁') = b₁ at e1
    generalize (if k.all (fun x => decide (x ∈ p₂)) then some r else d₂) = a₂ at e2
    generalize (if k.all (fun x => decide (x ∈ p₂)) then some r' else d₂') = b₂ at e2
    split_ifs
    · exact ⟨e1, e2⟩
    · exact ih _ _ _ _ e1 e2

theorem putPoint_reordered {Q : List (List Val) → List (List Val) → Prop} {l l' : List (List String × PointResult)}
    (h : ReorderedResults Q l l') (k : List String) {r r' : PointResult} (hr : ReorderedResult Q r r') :
    ReorderedResults Q (putPoint l k r) (putPoint l' k r') := by
  have hany : l.any (fun p => p.1 == k) = l'.any (fun p => p.1 == k) := by
    induction h with
    | nil => rfl
    | cons hab _ ih => rw [List.any_cons, List.any_cons, hab.1, ih]
  unfold putPoint
  rw [hany]
  split_ifs
  · unfold ReorderedResults
    rw [List.forall₂_map_left_iff, List.forall₂_map_right_iff]
    refine h.imp ?_
    intro a b hab
    rw [hab.1]
    split_ifs
    · exact ⟨rfl, hr⟩
    · exact ⟨hab.1, hab.2⟩
  · exact List.rel_append h (.cons ⟨rfl, hr⟩ .nil)

/-! ### The table without bootstrapping -/

/-- No requested curve is an equivalence test. -/
def NoEquivalence (curves : List (String × DerivedCurve)) : Prop := ∀ q ∈ curves, q.2.op ≠ "ETB"

theorem lookup_mem {α : Type} {l : List (String × α)} {k : String} {v : α} (h : l.lookup k = some v) : (k, v) ∈ l := by
  induction l with
  | nil => simp at h
  | cons a l ih =>
    rw [List.lookup_cons] at h
    split at h
    · rename_i e
      have : k = a.1 := by simpa using e
      rw [this, ← Option.some.inj h]
      simp
    · exact List.mem_cons_of_mem _ (ih h)

theorem derivedPoint_reordered {statOf : String → List (List Val) → Except PyErr PyNum} {etb : List PyNum → List PyNum → PyNum}
    {cols : List String} {groups : List (String × String)} {curves : List (String × DerivedCurve)} (hc : NoEquivalence curves)
    {Q : List (List Val) → List (List Val) → Prop} {l l' : List (List String × PointResult)} (h : ReorderedResults Q l l')
    (stat : String) (point : List String) :
    derivedPoint statOf etb cols groups curves stat l point = derivedPoint statOf etb cols groups curves stat l' point := by
  unfold derivedPoint
  cases hl : curves.lookup (derivedNameOf point) with
  | none => rfl
  | some cv =>
    have hop := hc _ (lookup_mem hl)
    simp only at hop ⊢
    obtain ⟨e1, e2⟩ := findPair_reordered (fullComponents groups cv.first point) (fullComponents groups cv.second point) h none none none none
      .none .none
    generalize findPair (fullComponents groups cv.first point) (fullComponents groups cv.second point) l none none = x at e1 e2
    generalize findPair (fullComponents groups cv.first point) (fullComponents groups cv.second point) l' none none = y at e1 e2
    obtain ⟨x₁, x₂⟩ := x
    obtain ⟨y₁, y₂⟩ := y
    simp only at e1 e2
    cases e1 with
    | none => rfl
    | some e1 =>
      cases e2 with
      | none => rfl
      | some e2 =>
        simp only
        rw [checkDerived_perm _ _ _ _ e1.2.1 e2.2.1]
        unfold derivedValue
        simp only [hop, if_false, e1.1, e2.1]

theorem pointRows_perm {f : Frame} {rows' : List (List Val)} (hp : rows'.Perm f.rows) (req : List (String × String))
    (fcst : Option String) : Alike (fun a b => b.Perm a) (pointRows f req fcst) (pointRows ⟨f.cols, rows'⟩ req fcst) := by
  unfold pointRows
  have e : pointFilters ⟨f.cols, rows'⟩ req fcst = pointFilters f req fcst := rfl
  rw [e]
  split_ifs
  · exact .error _
  · exact .ok (hp.filter _)

/-- The state of the loop. -/
def ReorderedState (s s' : AggState) : Prop := s.stat = s'.stat ∧ s.out = s'.out ∧ ReorderedResults (fun _ _ => True) s.results s'.results

theorem aggStep_reordered {statOf : String → List (List Val) → Except PyErr PyNum} {etb : List PyNum → List PyNum → PyNum}
    {f : Frame} {rows' : List (List Val)} (hp : rows'.Perm f.rows) {c : AggConfig} {curves : List (String × DerivedCurve)}
    (hc : NoEquivalence curves) {point : List String}
    (hstat : isDerivedPoint (some point) = false → ∀ old rows rows₂,
      pointRows f ((c.fields.map Prod.fst).zip point) c.fcstVars.head? = .ok rows → rows ≠ [] → rows₂.Perm rows →
      statOf (pointStat c.stats point old) rows₂ = statOf (pointStat c.stats point old) rows)
    (s s' : AggState) (h : ReorderedState s s') :
    Alike ReorderedState (aggStep statOf etb f c curves s point) (aggStep statOf etb ⟨f.cols, rows'⟩ c curves s' point) := by
  obtain ⟨h1, h2, h3⟩ := h
  unfold aggStep
  simp only [h1]
  by_cases hd : isDerivedPoint (some point) = true
  · rw [if_pos hd, if_pos hd, derivedPoint_reordered hc h3]
    refine (Alike.refl _).bind ?_
    rintro a _ rfl
    exact .ok ⟨rfl, by rw [h2], h3⟩
  · rw [if_neg hd, if_neg hd]
    have hd' : isDerivedPoint (some point) = false := by simpa using hd
    have hpr := pointRows_perm hp ((c.fields.map Prod.fst).zip point) c.fcstVars.head?
    generalize hx : pointRows f ((c.fields.map Prod.fst).zip point) c.fcstVars.head? = x at hpr
    generalize pointRows ⟨f.cols, rows'⟩ ((c.fields.map Prod.fst).zip point) c.fcstVars.head? = y at hpr
    cases hpr with
    | error e => exact .error e
    | @ok rows rows₂ hr =>
      simp only [bind, Except.bind]
      rw [isEmpty_perm hr]
      by_cases hne : rows = []
      · subst hne
        obtain rfl := hr.eq_nil
        exact .ok ⟨rfl, by simp [h2], putPoint_reordered h3 _ ⟨rfl, .refl _, trivial⟩⟩
      · have he : rows.isEmpty = false := List.isEmpty_eq_false_iff.mpr hne
        rw [he, hstat hd' s'.stat rows rows₂ hx hne hr]
        simp only [Bool.false_eq_true, if_false]
        cases statOf (pointStat c.stats point s'.stat) rows with
        | error e => exact .error e
        | ok v => exact .ok ⟨rfl, by simp [h2, hr.length_eq], putPoint_reordered h3 _ ⟨rfl, hr, trivial⟩⟩

theorem mem_dictSet {β : Type} {d : List (String × β)} {k : String} {v : β} {q : String × β} (h : q ∈ dictSet d k v) :
    q = (k, v) ∨ q ∈ d := by
  unfold dictSet at h
  split at h
  · obtain ⟨x, hx, rfl⟩ := List.mem_map.mp h
    split
    · exact Or.inl rfl
    · exact Or.inr hx
  · rcases List.mem_append.mp h with h | h
    · exact Or.inr h
    · exact Or.inl (by simpa using h)

theorem noEquivalence_entries {c : AggConfig} (hd : ∀ d ∈ c.derived, d.getLast? ≠ some "ETB")
    {entries : List (String × DerivedCurve × List (List String))} (h : c.derived.mapM (derivedEntry c) = .ok entries) :
    NoEquivalence (entries.foldl (fun d e => dictSet d e.1 e.2.1) []) := by
  have hop : ∀ e ∈ entries, e.2.1.op ≠ "ETB" := by
    intro e he
    obtain ⟨d, hd1, hd2⟩ := forall₂_right_mem (mapM_except_mem _ h) he
    have := hd d hd1
    unfold derivedEntry at hd2
    match d, hd2, this with
    | [], hd2, _ => simp at hd2
    | [_], hd2, _ => simp at hd2
    | a :: b :: rest, hd2, this =>
      simp only [bind, Except.bind] at hd2
      split at hd2
      · simp at hd2
      · split at hd2
        · simp at hd2
        · split at hd2
          · simp at hd2
          · rw [← Except.ok.inj hd2]
            simp only
            rw [List.getLastD_eq_getLast?]
            intro hh
            apply this
            cases hl : (a :: b :: rest).getLast? with
            | none => simp at hl
            | some z => rw [hl] at hh; simpa using hh
  have : ∀ (es : List (String × DerivedCurve × List (List String))), (∀ e ∈ es, e.2.1.op ≠ "ETB") →
      ∀ acc, NoEquivalence acc → NoEquivalence (es.foldl (fun d e => dictSet d e.1 e.2.1) acc) := by
    intro es
    induction es with
    | nil => intro _ acc h; exact h
    | cons e es ih =>
      intro he acc hacc
      rw [List.foldl_cons]
      refine ih (fun x hx => he x (by simp [hx])) _ ?_
      intro q hq
      rcases mem_dictSet hq with h | h
      · rw [h]; exact he e (by simp)
      · exact hacc q h
  exact this entries hop [] (by intro q hq; simp at hq)

/-- The table of an axis. -/
theorem aggAxis_reordered {statOf : String → List (List Val) → Except PyErr PyNum} {etb : List PyNum → List PyNum → PyNum}
    {f : Frame} {rows' : List (List Val)} (hp : rows'.Perm f.rows) {c : AggConfig}
    (hd : ∀ d ∈ c.derived, d.getLast? ≠ some "ETB") (hstat : ∀ st zs zs', zs'.Perm zs → statOf st zs' = statOf st zs) :
    aggAxis statOf etb ⟨f.cols, rows'⟩ c = aggAxis statOf etb f c := by
  unfold aggAxis
  have he : (⟨f.cols, rows'⟩ : Frame).isEmpty = f.isEmpty := by
    unfold Frame.isEmpty
    simp only [isEmpty_perm hp]
  rw [he]
  split_ifs
  · rfl
  · cases hm : c.derived.mapM (derivedEntry c) with
    | error e => rfl
    | ok entries =>
      simp only [bind, Except.bind]
      have hc := noEquivalence_entries hd hm
      have := Alike.foldlM (R := ReorderedState) (g := aggStep statOf etb f c (entries.foldl (fun d e => dictSet d e.1 e.2.1) []))
        (k := aggStep statOf etb ⟨f.cols, rows'⟩ c (entries.foldl (fun d e => dictSet d e.1 e.2.1) []))
        (c.plainPoints ++ entries.flatMap (fun e => e.2.2)) (by
          intro point hpt s s' h
          exact aggStep_reordered hp hc (fun _ _ rows rows₂ _ _ hperm => hstat _ rows rows₂ hperm) s s' h) ⟨"", [], []⟩ ⟨"", [], []⟩ ⟨rfl, rfl, .nil⟩
      generalize (c.plainPoints ++ entries.flatMap (fun e => e.2.2)).foldlM
        (aggStep statOf etb f c (entries.foldl (fun d e => dictSet d e.1 e.2.1) [])) ⟨"", [], []⟩ = x at this
      generalize (c.plainPoints ++ entries.flatMap (fun e => e.2.2)).foldlM
        (aggStep statOf etb ⟨f.cols, rows'⟩ c (entries.foldl (fun d e => dictSet d e.1 e.2.1) [])) ⟨"", [], []⟩ = y at this
      cases this with
      | error e => rfl
      | ok h => simp only [h.2.1]

/-! ### The table with bootstrapping -/

/-- Lines of different cases are sorted into the same order, however they are listed. -/
theorem sortData_perm {f : Frame} {rows rows' : List (List Val)} (hn : (rows.map (caseOf f)).Nodup) (hp : rows'.Perm rows) :
    sortData f rows' = sortData f rows := by
  have key : ∀ {x y : List (List Val)}, (∃ e, sortData f x = .error e ∧ sortData f y = .error e) ∨
      ∃ a b, sortData f x = .ok a ∧ sortData f y = .ok b := by
    intro x y
    unfold sortData
    simp only [bind, Except.bind]
    cases f.col (sortTime f.cols) with
    | error e => exact Or.inl ⟨e, rfl, rfl⟩
    | ok i =>
      cases f.col "fcst_lead" with
      | error e => exact Or.inl ⟨e, rfl, rfl⟩
      | ok j => exact Or.inr ⟨_, _, rfl, rfl⟩
  rcases key (x := rows') (y := rows) with ⟨e, h1, h2⟩ | ⟨a, b, h1, h2⟩
  · rw [h1, h2]
  · obtain ⟨p1, s1⟩ := sortData_spec h1
    obtain ⟨p2, s2⟩ := sortData_spec h2
    rw [h1, h2]
    rw [List.pairwise_map] at s1 s2
    have : a = b := by
      refine List.Perm.eq_of_pairwise ?_ s1 s2 (p1.trans (hp.trans p2.symm))
      intro u v hu hv h3 h4
      exact List.inj_on_of_nodup_map hn ((hp.mem_iff).mp (p1.mem_iff.mp hu)) (p2.mem_iff.mp hv)
        (keyOfCase_inj (le_antisymm h3 h4))
    rw [this]

/-- The rows kept are sorted into the same order. -/
def SortedAlike (f : Frame) (rows rows' : List (List Val)) : Prop := sortData f rows' = sortData f rows

theorem derivedPointBoot_reordered {statOf : String → List (List Val) → Except PyErr PyNum}
    {etb : List PyNum → List PyNum → PyNum} {s : BootSettings} {f : Frame} {rows' : List (List Val)}
    {groups : List (String × String)} {curves : List (String × DerivedCurve)} (hc : NoEquivalence curves)
    {l l' : List (List String × PointResult)} (h : ReorderedResults (SortedAlike f) l l')
    (stat : String) (point : List String) (draw : ℕ → List (List ℕ)) :
    derivedPointBoot statOf etb s f groups curves stat l point draw =
      derivedPointBoot statOf etb s ⟨f.cols, rows'⟩ groups curves stat l' point draw := by
  unfold derivedPointBoot
  cases hl : curves.lookup (derivedNameOf point) with
  | none => rfl
  | some cv =>
    have hop := hc _ (lookup_mem hl)
    simp only at hop ⊢
    obtain ⟨e1, e2⟩ := findPair_reordered (fullComponents groups cv.first point) (fullComponents groups cv.second point) h
      none none none none .none .none
    generalize findPair (fullComponents groups cv.first point) (fullComponents groups cv.second point) l none none = x at e1 e2
    generalize findPair (fullComponents groups cv.first point) (fullComponents groups cv.second point) l' none none = y at e1 e2
    obtain ⟨x₁, x₂⟩ := x
    obtain ⟨y₁, y₂⟩ := y
    simp only at e1 e2
    cases e1 with
    | none => rfl
    | @some d₁ d₁' e1 =>
      cases e2 with
      | none => rfl
      | @some d₂ d₂' e2 =>
        simp only
        rw [checkDerived_perm _ _ _ _ e1.2.1 e2.2.1]
        have hs : ∀ a b v₁ v₂ ids, derivedSig statOf etb s ⟨f.cols, rows'⟩ stat a b v₁ v₂ ids =
          derivedSig statOf etb s f stat a b v₁ v₂ ids := fun _ _ _ _ _ => rfl
        have hb : ∀ op a b ids, derivedBoot statOf etb s ⟨f.cols, rows'⟩ op a b ids =
          derivedBoot statOf etb s f op a b ids := fun _ _ _ _ => rfl
        have hs' : ∀ ids, derivedSig statOf etb s f stat (d₁'.rows.getD []) (d₂'.rows.getD []) d₁'.value d₂'.value ids =
            derivedSig statOf etb s f stat (d₁.rows.getD []) (d₂.rows.getD []) d₁.value d₂.value ids := by
          intro ids
          have q1 : sortData f (d₁'.rows.getD []) = sortData f (d₁.rows.getD []) := e1.2.2
          have q2 : sortData f (d₂'.rows.getD []) = sortData f (d₂.rows.getD []) := e2.2.2
          unfold derivedSig
          rw [q1, q2, e1.1, e2.1]
        have hb' : ∀ op ids, derivedBoot statOf etb s f op (d₁'.rows.getD []) (d₂'.rows.getD []) ids =
            derivedBoot statOf etb s f op (d₁.rows.getD []) (d₂.rows.getD []) ids := by
          intro op ids
          have q1 : sortData f (d₁'.rows.getD []) = sortData f (d₁.rows.getD []) := e1.2.2
          have q2 : sortData f (d₂'.rows.getD []) = sortData f (d₂.rows.getD []) := e2.2.2
          unfold derivedBoot
          rw [q1, q2]
        simp only [hop, if_false, hs, hb, hs', hb', e1.2.1.length_eq]

/-- The state of the loop. -/
def ReorderedBoot (f : Frame) (s s' : BootState) : Prop :=
  s.stat = s'.stat ∧ s.out = s'.out ∧ ReorderedResults (SortedAlike f) s.results s'.results

theorem bootStep_reordered {statOf : String → List (List Val) → Except PyErr PyNum} {etb : List PyNum → List PyNum → PyNum}
    {s : BootSettings} {draws : ℕ → ℕ → List (List ℕ)} {f : Frame} {rows' : List (List Val)} (hp : rows'.Perm f.rows)
    {c : AggConfig} {curves : List (String × DerivedCurve)} (hc : NoEquivalence curves) {point : List String}
    (hn : isDerivedPoint (some point) = false → ∀ rows,
      pointRows f ((c.fields.map Prod.fst).zip point) c.fcstVars.head? = .ok rows → (rows.map (caseOf f)).Nodup)
    (t t' : BootState) (h : ReorderedBoot f t t') :
    Alike (ReorderedBoot f) (bootStep statOf etb s draws f c curves t point)
      (bootStep statOf etb s draws ⟨f.cols, rows'⟩ c curves t' point) := by
  obtain ⟨h1, h2, h3⟩ := h
  unfold bootStep
  simp only [h1, h2]
  by_cases hd : isDerivedPoint (some point) = true
  · rw [if_pos hd, if_pos hd, derivedPointBoot_reordered (rows' := rows') hc h3]
    refine (Alike.refl _).bind ?_
    rintro a _ rfl
    exact .ok ⟨rfl, rfl, h3⟩
  · rw [if_neg hd, if_neg hd]
    have hd' : isDerivedPoint (some point) = false := by simpa using hd
    have hpr := pointRows_perm hp ((c.fields.map Prod.fst).zip point) c.fcstVars.head?
    generalize hx : pointRows f ((c.fields.map Prod.fst).zip point) c.fcstVars.head? = x at hpr
    generalize pointRows ⟨f.cols, rows'⟩ ((c.fields.map Prod.fst).zip point) c.fcstVars.head? = y at hpr
    cases hpr with
    | error e => exact .error e
    | @ok rows rows₂ hr =>
      have hsort := sortData_perm (hn hd' rows hx) hr
      simp only [bind, Except.bind]
      rw [hr.length_eq]
      have hpb : Alike (fun (a b : BootResult × Option (List (List Val))) => a.1 = b.1 ∧ (b.2.getD []).Perm (a.2.getD []) ∧
            SortedAlike f (a.2.getD []) (b.2.getD []))
          (plainBoot statOf s f (pointStat c.stats point t'.stat) rows (draws t'.out.length rows.length))
          (plainBoot statOf s ⟨f.cols, rows'⟩ (pointStat c.stats point t'.stat) rows₂ (draws t'.out.length rows.length)) := by
        unfold plainBoot
        rw [isEmpty_perm hr]
        have hs' : sortData ⟨f.cols, rows'⟩ rows₂ = sortData f rows := hsort
        rw [hs']
        split_ifs
        · exact .ok ⟨rfl, .refl _, rfl⟩
        · simp only [bind, Except.bind]
          cases sortData f rows with
          | error e => exact .error e
          | ok data =>
            simp only
            cases seriesTry statOf s (pointStat c.stats point t'.stat) data (draws t'.out.length rows.length) with
            | ok r => exact .ok ⟨rfl, hr, hsort⟩
            | error e => cases e <;> first | exact .ok ⟨rfl, .refl _, rfl⟩ | exact .error _
      generalize plainBoot statOf s f (pointStat c.stats point t'.stat) rows (draws t'.out.length rows.length) = x at hpb
      generalize plainBoot statOf s ⟨f.cols, rows'⟩ (pointStat c.stats point t'.stat) rows₂ (draws t'.out.length rows.length) = y at hpb
      cases hpb with
      | error e => exact .error e
      | @ok a b hab =>
        simp only
        rw [hab.1]
        exact .ok ⟨rfl, rfl, putPoint_reordered h3 _ ⟨rfl, hab.2⟩⟩

/-- The bootstrapped table of an axis. -/
theorem bootAxis_reordered {statOf : String → List (List Val) → Except PyErr PyNum} {etb : List PyNum → List PyNum → PyNum}
    {s : BootSettings} {draws : ℕ → ℕ → List (List ℕ)} {f : Frame} {rows' : List (List Val)} (hp : rows'.Perm f.rows)
    {c : AggConfig} (hdist : FieldsDistinct c) (hd : ∀ d ∈ c.derived, d.getLast? ≠ some "ETB")
    (hn : ∀ point ∈ c.plainPoints, ∀ rows, pointRows f ((c.fields.map Prod.fst).zip point) c.fcstVars.head? = .ok rows →
      (rows.map (caseOf f)).Nodup) :
    bootAxis statOf etb s draws ⟨f.cols, rows'⟩ c = bootAxis statOf etb s draws f c := by
  unfold bootAxis
  have he : (⟨f.cols, rows'⟩ : Frame).isEmpty = f.isEmpty := by
    unfold Frame.isEmpty
    simp only [isEmpty_perm hp]
  rw [he]
  split_ifs
  · rfl
  · cases hm : c.derived.mapM (derivedEntry c) with
    | error e => rfl
    | ok entries =>
      simp only [bind, Except.bind]
      have hc := noEquivalence_entries hd hm
      have := Alike.foldlM (R := ReorderedBoot f)
        (g := bootStep statOf etb s draws f c (entries.foldl (fun d e => dictSet d e.1 e.2.1) []))
        (k := bootStep statOf etb s draws ⟨f.cols, rows'⟩ c (entries.foldl (fun d e => dictSet d e.1 e.2.1) []))
        (c.plainPoints ++ entries.flatMap (fun e => e.2.2)) (by
          intro point hpt t t' h
          refine bootStep_reordered hp hc ?_ t t' h
          intro hnd rows hr
          rcases List.mem_append.mp hpt with h1 | h1
          · exact hn point h1 rows hr
          · obtain ⟨e, he, hpe⟩ := List.mem_flatMap.mp h1
            obtain ⟨d, hd1, hd2⟩ := forall₂_right_mem (mapM_except_mem _ hm) he
            rw [(derivedEntry_points hdist hd2).2 point hpe] at hnd
            simp at hnd) ⟨"", [], []⟩ ⟨"", [], []⟩ ⟨rfl, rfl, .nil⟩
      generalize (c.plainPoints ++ entries.flatMap (fun e => e.2.2)).foldlM
        (bootStep statOf etb s draws f c (entries.foldl (fun d e => dictSet d e.1 e.2.1) [])) ⟨"", [], []⟩ = x at this
      generalize (c.plainPoints ++ entries.flatMap (fun e => e.2.2)).foldlM
        (bootStep statOf etb s draws ⟨f.cols, rows'⟩ c (entries.foldl (fun d e => dictSet d e.1 e.2.1) [])) ⟨"", [], []⟩ = y at this
      cases this with
      | error e => rfl
      | ok h => simp only [h.2.1]

end Metcalcpy.Props
