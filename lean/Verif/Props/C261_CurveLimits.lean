/-
C261  Bootstrap limits of derived curves in the aggregation table come from paired resamples of the common cases.
-/
import Verif.Props.C258_CtcLimits

namespace Metcalcpy.Props

open Metcalcpy Spec

/-! ### The loop over the points -/

/-- What a result keeps of a plain point: its rows, if there are any. -/
def KeepsRows (f : Frame) (c : AggConfig) (p : List String) (r : PointResult) : Prop :=
  ∃ rows, pointRows f ((c.fields.map Prod.fst).zip p) c.fcstVars.head? = .ok rows ∧ r.rows.getD [] = rows

/-- What a result keeps of the value of a plain point: the statistic of its sorted rows. -/
def KeepsValue (statOf : String → List (List Val) → Except PyErr PyNum) (s : BootSettings) (f : Frame) (c : AggConfig)
    (p : List String) (r : PointResult) : Prop :=
  r.rows.getD [] ≠ [] → ∃ data v x, sortData f (r.rows.getD []) = .ok data ∧ statOf (pointStat c.stats p "") data = .ok v ∧
    r.value = toPyNum x ∧ (s.method ≠ .other → x = v.cell)

theorem bootStep_plain {statOf : String → List (List Val) → Except PyErr PyNum} {etb : List PyNum → List PyNum → PyNum}
    {s : BootSettings} {draws : ℕ → ℕ → List (List ℕ)} {f : Frame} {c : AggConfig} {curves : List (String × DerivedCurve)}
    {k : ℕ} (R : BootRequest f c)
    (hkey : ∀ st ∈ c.stats, ∀ rows, rows ≠ [] → (∀ r ∈ rows, r ∈ f.rows) → statOf (lower st) rows ≠ .error .keyError)
    (hdraw : ∀ i n, IndexMatrix n k (draws i n)) {b b' : BootState} {p : List String}
    (hd : isDerivedPoint (some p) = false) (hp : p ∈ c.plainPoints)
    (h : bootStep statOf etb s draws f c curves b p = .ok b') :
    ∃ r, (KeepsRows f c p r ∧ KeepsValue statOf s f c p r) ∧ b'.results = putPoint b.results p r ∧ ∃ o, b'.out = b.out ++ [o] := by
  unfold bootStep at h
  simp only [hd, Bool.false_eq_true, if_false, bind, Except.bind] at h
  cases hr : pointRows f ((c.fields.map Prod.fst).zip p) c.fcstVars.head? with
  | error e => rw [hr] at h; simp at h
  | ok rows =>
    rw [hr] at h
    simp only at h
    obtain ⟨m1, st, hst, hps, hcell⟩ := plain_rows R hp hr
    rw [hps] at h
    cases hb : plainBoot statOf s f (lower st) rows (draws b.out.length rows.length) with
    | error e => rw [hb] at h; simp at h
    | ok res =>
      rw [hb] at h
      simp only [Except.ok.injEq] at h
      rw [← h]
      suffices hkeep : res.2.getD [] = rows ∧ (rows ≠ [] → ∃ data v, sortData f rows = .ok data ∧
          statOf (lower st) data = .ok v ∧ (s.method ≠ .other → res.1.value = v.cell)) by
        refine ⟨_, ⟨⟨rows, hr, hkeep.1⟩, ?_⟩, rfl, _, rfl⟩
        intro hne
        simp only [hkeep.1] at hne
        obtain ⟨data, v, e1, e2, e3⟩ := hkeep.2 hne
        exact ⟨data, v, res.1.value, by simpa only [hkeep.1] using e1, by rw [hps]; exact e2, rfl, e3⟩
      by_cases he : rows = []
      · subst he
        simp only [plainBoot, List.isEmpty_nil, if_true, Except.ok.injEq] at hb
        rw [← hb]
        exact ⟨rfl, fun h => absurd rfl h⟩
      · have hb' : rows.isEmpty = false := by simpa using he
        simp only [plainBoot, hb', Bool.false_eq_true, if_false, bind, Except.bind] at hb
        cases hs : sortData f rows with
        | error e => rw [hs] at hb; simp at hb
        | ok data =>
          rw [hs] at hb
          simp only at hb
          have hlen : data.length = rows.length := (sortData_spec hs).1.length_eq
          have hids : IndexMatrix data.length k (draws b.out.length rows.length) := by rw [hlen]; exact hdraw _ _
          have hne := (sortData_mem hs).2 he
          have hk : ∀ zs, zs ≠ [] → (∀ r ∈ zs, r ∈ data) → statOf (lower st) zs ≠ .error .keyError := fun zs z1 z2 =>
            hkey st hst zs z1 (fun r hr => m1 r ((sortData_mem hs).1 r (z2 r hr)))
          have hnk : seriesTry statOf s (lower st) data (draws b.out.length rows.length) ≠ .error .keyError := by
            unfold seriesTry
            rw [generate_pick data _ k _ hids]
            simp only [bind, Except.bind]
            cases hv : statOf (lower st) data with
            | error e =>
              simp only [ne_eq, Except.error.injEq]
              rintro rfl
              exact hk data hne (fun _ h => h) hv
            | ok v =>
              simp only
              cases hd : ((draws b.out.length rows.length).map (fun row => pick data (positionsUsed
                  (blockLength s data.length) row))).mapM (statOf (lower st)) with
              | error e =>
                obtain ⟨zs, hz, he⟩ := mapM_error _ hd
                obtain ⟨row, hrow, rfl⟩ := List.mem_map.mp hz
                simp only [ne_eq, Except.error.injEq]
                rintro rfl
                exact hk _ (pick_ne hne _ (hids.2 row hrow).1 (hids.2 row hrow).2) (fun r hr => pick_mem hr) he
              | ok dist => exact ci_not_keyError _ _ _ _
          cases ht : seriesTry statOf s (lower st) data (draws b.out.length rows.length) with
          | error e =>
            rw [ht] at hb hnk
            cases e <;> first | exact absurd rfl hnk | simp at hb
          | ok r =>
            rw [ht] at hb
            simp only [Except.ok.injEq] at hb
            rw [← hb]
            refine ⟨rfl, fun _ => ?_⟩
            unfold seriesTry at ht
            rw [generate_pick data _ k _ hids] at ht
            simp only [bind, Except.bind] at ht
            cases hv : statOf (lower st) data with
            | error e => rw [hv] at ht; simp at ht
            | ok v =>
              rw [hv] at ht
              simp only at ht
              refine ⟨data, v, rfl, hv, fun hm => ?_⟩
              split at ht
              · simp at ht
              · exact ci_value hm ht

/-- After the plain points the results belong to the points, one to each. -/
theorem boot_results {statOf : String → List (List Val) → Except PyErr PyNum} {etb : List PyNum → List PyNum → PyNum}
    {s : BootSettings} {draws : ℕ → ℕ → List (List ℕ)} {f : Frame} {c : AggConfig} {curves : List (String × DerivedCurve)}
    {k : ℕ} (R : BootRequest f c)
    (hkey : ∀ st ∈ c.stats, ∀ rows, rows ≠ [] → (∀ r ∈ rows, r ∈ f.rows) → statOf (lower st) rows ≠ .error .keyError)
    (hdraw : ∀ i n, IndexMatrix n k (draws i n)) (pts : List (List String))
    (hp : ∀ p ∈ pts, isDerivedPoint (some p) = false ∧ p ∈ c.plainPoints) {st st' : BootState}
    (hst : ∀ x ∈ st.results, ∀ y ∈ st.results, x.1 = y.1 → x = y)
    (h : pts.foldlM (bootStep statOf etb s draws f c curves) st = .ok st') :
    (∀ x ∈ st'.results, x ∈ st.results ∨ (x.1 ∈ pts ∧ KeepsRows f c x.1 x.2 ∧ KeepsValue statOf s f c x.1 x.2)) ∧
    (∀ x ∈ st.results, ∃ y ∈ st'.results, y.1 = x.1) ∧ (∀ p ∈ pts, ∃ y ∈ st'.results, y.1 = p) ∧
    (∀ x ∈ st'.results, ∀ y ∈ st'.results, x.1 = y.1 → x = y) ∧ st'.out.length = st.out.length + pts.length := by
  induction pts generalizing st with
  | nil =>
    simp [pure, Except.pure] at h
    subst h
    exact ⟨fun x hx => Or.inl hx, fun x hx => ⟨x, hx, rfl⟩, by simp, hst, by simp⟩
  | cons p pts ih =>
    obtain ⟨s₁, h₁, h₂⟩ := foldlM_except_cons _ _ _ _ h
    obtain ⟨r, hr, hres, o, ho⟩ := bootStep_plain R hkey hdraw (hp p (by simp)).1 (hp p (by simp)).2 h₁
    obtain ⟨g1, g2, g3, g4, g5⟩ := ih (fun q hq => hp q (by simp [hq])) (by
      rw [hres]
      intro x hx y hy e
      rcases putPoint_mem _ _ _ hx with rfl | ⟨hx, nx⟩ <;> rcases putPoint_mem _ _ _ hy with rfl | ⟨hy, ny⟩
      · rfl
      · exact absurd e.symm ny
      · exact absurd e nx
      · exact hst x hx y hy e) h₂
    refine ⟨fun x hx => ?_, fun x hx => ?_, fun q hq => ?_, g4, by rw [g5, ho]; simp; omega⟩
    · rcases g1 x hx with h | ⟨h, h'⟩
      · rw [hres] at h
        rcases putPoint_mem _ _ _ h with rfl | ⟨h, -⟩
        · exact Or.inr ⟨by simp, hr⟩
        · exact Or.inl h
      · exact Or.inr ⟨by simp [h], h'⟩
    · obtain ⟨y, hy, e⟩ := putPoint_keys st.results p r hx
      rw [← hres] at hy
      obtain ⟨z, hz, e'⟩ := g2 y hy
      exact ⟨z, hz, e'.trans e⟩
    · rcases List.mem_cons.mp hq with rfl | hq
      · have : (q, r) ∈ s₁.results := by rw [hres]; exact putPoint_self _ _ _
        obtain ⟨z, hz, e'⟩ := g2 _ this
        exact ⟨z, hz, e'⟩
      · exact g3 q hq

/-- The loop over derived points leaves the results alone. -/
theorem boot_derived {statOf : String → List (List Val) → Except PyErr PyNum} {etb : List PyNum → List PyNum → PyNum}
    {s : BootSettings} {draws : ℕ → ℕ → List (List ℕ)} {f : Frame} {c : AggConfig} {curves : List (String × DerivedCurve)}
    (pts : List (List String)) (hp : ∀ p ∈ pts, isDerivedPoint (some p) = true) {st st' : BootState}
    (h : pts.foldlM (bootStep statOf etb s draws f c curves) st = .ok st') :
    ∃ outs, st'.out = st.out ++ outs ∧ outs.map BootOut.point = pts ∧
      ∀ i o, outs[i]? = some o → ∃ old,
        derivedPointBoot statOf etb s f c.groups curves (pointStat c.stats o.point old) st.results o.point (draws (st.out.length + i)) =
          .ok (o.value, o.lower, o.upper) := by
  induction pts generalizing st with
  | nil =>
    simp [pure, Except.pure] at h
    exact ⟨[], by simp [h], rfl, by simp⟩
  | cons p pts ih =>
    obtain ⟨s₁, h₁, h₂⟩ := foldlM_except_cons _ _ _ _ h
    unfold bootStep at h₁
    simp only [hp p (by simp), if_true, bind, Except.bind] at h₁
    split at h₁
    · simp at h₁
    · next v hv =>
      simp only [Except.ok.injEq] at h₁
      obtain ⟨outs, e, hpt, hf⟩ := ih (fun q hq => hp q (by simp [hq])) h₂
      rw [← h₁] at e hf
      refine ⟨_ :: outs, by rw [e, List.append_assoc]; rfl, by simp [hpt], ?_⟩
      intro i o hi
      cases i with
      | zero =>
        simp only [List.getElem?_cons_zero, Option.some.injEq] at hi
        subst hi
        exact ⟨_, hv⟩
      | succ i =>
        simp only [List.getElem?_cons_succ] at hi
        obtain ⟨stat, hs⟩ := hf i o hi
        refine ⟨stat, ?_⟩
        rw [show st.out.length + (i + 1) = (st.out ++ [(⟨p, c.fcstVars.head?, v.1, v.2.1, v.2.2, 0⟩ : BootOut)]).length + i by
          simp; omega]
        exact hs

/-! ### The two series of a curve -/

set_option maxHeartbeats 1000000 in
/-- The point of a derived curve is among the points of its axis, and its two series are found among the results. -/
theorem curve_series {c : AggConfig} {entries : List (String × DerivedCurve × List (List String))}
    {results : List (List String × PointResult)} (hdist : FieldsDistinct c) (hkeys : (c.series.map Prod.fst).Nodup)
    (hv : ∀ q ∈ requestedValues c, ∀ v ∈ q.2, isDerivedPoint (some [v]) = false)
    {pre post extra : List String} {x y s a b op name : String} (C : CurveNamed c pre post extra x y s a b op name)
    {i : String} (hi : i ∈ c.indyVals) (hm : c.derived.mapM (derivedEntry c) = .ok entries)
    (hres : ∀ w ∈ results, w.1 ∈ c.plainPoints) (hfun : ∀ v ∈ results, ∀ w ∈ results, v.1 = w.1 → v = w)
    (hkey : ∀ p ∈ c.plainPoints, ∃ w ∈ results, w.1 = p) :
    isDerivedPoint (some (pre ++ name :: post ++ [i, s])) = true ∧
    pre ++ name :: post ++ [i, s] ∈ entries.flatMap (fun e => e.2.2) ∧
    ∃ (cv : DerivedCurve) (r₁ r₂ : PointResult), cv = ⟨pre ++ x :: post ++ extra ++ [s], pre ++ y :: post ++ extra ++ [s], op⟩ ∧
      (pre ++ x :: post ++ [i, s], r₁) ∈ results ∧ (pre ++ y :: post ++ [i, s], r₂) ∈ results ∧
      (entries.foldl (fun d e => dictSet d e.1 e.2.1) []).lookup (derivedNameOf (pre ++ name :: post ++ [i, s])) = some cv ∧
      findPair (fullComponents c.groups cv.first (pre ++ name :: post ++ [i, s]))
        (fullComponents c.groups cv.second (pre ++ name :: post ++ [i, s])) results none none = (some r₁, some r₂) := by
  obtain ⟨sp, var, vals, sq, hser, hpre, hpost, hx, hy, hxy⟩ := C.differs
  have hfe := fields_eq hdist
  have ha := C.first
  have hb := C.second
  have hdisj := C.disjoint
  have hnd : isDerivedPoint (some [name]) = true := derivedName_starts (by simp) C.named
  have hnn : ∀ q ∈ requestedValues c, name ∉ q.2 := fun q hq hm => by
    rw [hv q hq name hm] at hnd; exact Bool.noConfusion hnd
  have hs := ha.2.2.1
  have hassoc : ∀ l : List String, l ++ [i, s] = l ++ [i] ++ [s] := by simp
  simp only [hassoc]
  have hIs : List.Forall₂ (fun z (q : String × List String) => z ∈ q.2) [i]
      (if c.indyVals = [] then [] else [(c.indyVar, c.indyVals)]) := by
    rw [if_neg (List.ne_nil_of_mem hi)]; exact .cons hi .nil
  have hkeyOf : ∀ z ∈ vals,
      List.Forall₂ (fun w (q : String × List String) => w ∈ q.2) (pre ++ z :: post ++ [i] ++ [s]) (requestedValues c) := by
    intro z hz
    unfold requestedValues
    rw [hser]
    exact forall₂_append' (forall₂_append' (forall₂_append' hpre (.cons hz hpost)) hIs) (.cons hs .nil)
  have hmemOf : ∀ {k : List String}, List.Forall₂ (fun w (q : String × List String) => w ∈ q.2) k (requestedValues c) ↔
      k ∈ c.plainPoints := by
    intro k
    rw [AggConfig.plainPoints, mem_product, hfe, List.forall₂_map_right_iff]
  have hcomp : ∀ z ∈ vals, ∀ w, (w ∈ pre ++ z :: post ++ extra ++ [s] ∨
      w ∈ (pre ++ name :: post ++ [i] ++ [s]).tail) → (∃ q ∈ requestedValues c, w ∈ q.2) →
      w ∈ pre ++ z :: post ++ [i] ++ [s] := by
    rintro z hz w hw ⟨q, hq, hwq⟩
    exact mem_shape₁ (hw.imp id List.mem_of_mem_tail) (fun he => ha.2.2.2 w he q hq hwq) (fun e => hnn q hq (e ▸ hwq)) id
  have hgr : ∀ z, (z = x ∨ z = y) → ∀ w, (w ∈ pre ++ z :: post ++ extra ++ [s] ∨
      w ∈ (pre ++ name :: post ++ [i] ++ [s]).tail) → c.groups.lookup w = none := by
    intro z hz w hw
    apply C.groups
    exact mem_shape₂ (hw.imp id List.mem_of_mem_tail) hz (Or.inl rfl) (by simp only [List.mem_singleton]; rintro rfl; exact hi)
  have huniq : ∀ z ∈ vals, (z = x ∨ z = y) → ∀ k ∈ c.plainPoints,
      (∀ w ∈ k, w ∈ fullComponents c.groups (pre ++ z :: post ++ extra ++ [s]) (pre ++ name :: post ++ [i] ++ [s])) →
      k = pre ++ z :: post ++ [i] ++ [s] := by
    intro z hz hzx k hk hsub
    have hk' := hmemOf.mpr hk
    refine product_unique (Ls := (requestedValues c).map Prod.snd) ?_ (List.forall₂_map_right_iff.mpr hk')
      (List.forall₂_map_right_iff.mpr (hkeyOf z hz)) ?_
    · rw [List.pairwise_map]; exact hdisj
    · intro w hw
      refine hcomp z hz w ((mem_fullComponents c.groups _ _ (fun w hw => hgr z hzx w hw) w).mp (hsub w hw)) ?_
      obtain ⟨q, hq, hwq⟩ := forall₂_left_mem hk' hw
      exact ⟨q, hq, hwq⟩
  have hcontains : ∀ z, (z = x ∨ z = y) → ∀ w ∈ pre ++ z :: post ++ [i] ++ [s],
      w ∈ fullComponents c.groups (pre ++ z :: post ++ extra ++ [s]) (pre ++ name :: post ++ [i] ++ [s]) := by
    intro z hz w hw
    rw [mem_fullComponents c.groups _ _ (fun w hw => hgr z hz w hw)]
    exact mem_shape₃ hw
  have hr : ∀ z ∈ vals, ∃ r, (pre ++ z :: post ++ [i] ++ [s], r) ∈ results := by
    intro z hz
    obtain ⟨⟨k, r⟩, hw, e⟩ := hkey _ (hmemOf.mp (hkeyOf z hz))
    simp only at e
    subst e
    exact ⟨r, hw⟩
  obtain ⟨r₁, hm₁⟩ := hr x hx
  obtain ⟨r₂, hm₂⟩ := hr y hy
  have hpair : findPair (fullComponents c.groups (pre ++ x :: post ++ extra ++ [s]) (pre ++ name :: post ++ [i] ++ [s]))
      (fullComponents c.groups (pre ++ y :: post ++ extra ++ [s]) (pre ++ name :: post ++ [i] ++ [s])) results none none =
      (some r₁, some r₂) := by
    apply findPair_unique
    · intro w hw hsub
      rw [hfun w hw _ hm₁ (huniq x hx (Or.inl rfl) w.1 (hres w hw) hsub)]
    · intro w hw hsub
      rw [hfun w hw _ hm₂ (huniq y hy (Or.inr rfl) w.1 (hres w hw) hsub)]
    · exact Or.inr ⟨rfl, _, hm₁, hcontains x (Or.inl rfl)⟩
    · exact Or.inr ⟨rfl, _, hm₂, hcontains y (Or.inr rfl)⟩
  have hvar : ∃ diff, firstDifference (spaceParts a) (spaceParts b) = .ok diff ∧ operationVar c.series diff = .ok var := by
    rw [spaceParts_eq ha, spaceParts_eq hb]
    have hself : (requestedValues c).Pairwise (fun p q => ∀ z ∈ p.2, z ∉ q.2) := hdisj
    unfold requestedValues at hself
    rw [hser, List.append_assoc, List.append_assoc, List.pairwise_append] at hself
    obtain ⟨-, h2, h3⟩ := hself
    by_cases hxy' : x = y
    · have hsq : sq = [] := hxy.resolve_left (fun hn => hn hxy')
      subst hxy'
      refine ⟨_, firstDifference_last _ s s, ?_⟩
      have hlast : c.series.getLast? = some (var, vals) := by rw [hser, hsq]; simp
      unfold operationVar
      rw [hlast]
      simp
    · refine ⟨some (x, y), ?_, ?_⟩
      · have := firstDifference_split pre x y (post ++ extra ++ [s]) (post ++ extra ++ [s]) hxy'
        simpa using this
      · unfold operationVar
        have hf : c.series.find? (fun w => decide (x ∈ w.2) && decide (y ∈ w.2)) = some (var, vals) := by
          rw [hser, List.find?_append]
          have : sp.find? (fun w => decide (x ∈ w.2) && decide (y ∈ w.2)) = none := by
            rw [List.find?_eq_none]
            intro w hw hc
            rw [Bool.and_eq_true, decide_eq_true_iff] at hc
            exact h3 w hw (var, vals) (by simp) x hc.1 hx
          rw [this]
          simp [hx, hy]
        cases hl : c.series.getLast? with
        | none =>
          rw [List.getLast?_eq_none_iff] at hl
          rw [hl] at hser; simp at hser
        | some l =>
          show (match c.series.find? (fun w => decide (x ∈ w.2) && decide (y ∈ w.2)) with
            | some p => Except.ok p.1
            | none => Except.ok l.1) = Except.ok var
          rw [hf]
  obtain ⟨diff, hdiff, hopv⟩ := hvar
  have hentry : derivedEntry c [a, b, op] = .ok (name, ⟨pre ++ x :: post ++ extra ++ [s],
      pre ++ y :: post ++ extra ++ [s], op⟩, product ((derivedFields c var name (pre ++ x :: post ++ extra ++ [s])
        (pre ++ y :: post ++ extra ++ [s])).map Prod.snd)) := by
    rw [spaceParts_eq ha, spaceParts_eq hb] at hdiff
    unfold derivedEntry
    simp only [hopv, C.named, bind, Except.bind, spaceParts_eq ha, spaceParts_eq hb, hdiff]
    rfl
  have hpoint : pre ++ name :: post ++ [i] ++ [s] ∈ product ((derivedFields c var name
      (pre ++ x :: post ++ extra ++ [s]) (pre ++ y :: post ++ extra ++ [s])).map Prod.snd) := by
    rw [mem_product, List.forall₂_map_right_iff, derivedFields_eq hdist, hser, List.map_append, List.map_cons]
    rw [hser, List.map_append, List.map_cons] at hkeys
    have hk := List.nodup_append.mp hkeys
    have hk2 := List.nodup_cons.mp hk.2.1
    refine forall₂_append' (forall₂_append' (forall₂_append' ?_ (.cons ?_ ?_)) hIs) (.cons ?_ .nil)
    · rw [List.forall₂_map_right_iff]
      refine forall₂_imp_mem (forall₂_with_mem hpre) ?_
      rintro z q hq ⟨hz, hzq⟩
      have : q.1 ≠ var := fun e => hk.2.2 q.1 (List.mem_map_of_mem hq) var (by simp) e
      simp [this, hzq, hz]
    · simp
    · rw [List.forall₂_map_right_iff]
      refine forall₂_imp_mem (forall₂_with_mem hpost) ?_
      rintro z q hq ⟨hz, hzq⟩
      have : q.1 ≠ var := fun e => hk2.1 (List.mem_map.mpr ⟨q, hq, e⟩)
      simp [this, hzq, hz]
    · have l₁ : (pre ++ x :: post ++ extra ++ [s]).getLastD "" = s := getLastD_snoc _ _ _
      have l₂ : (pre ++ y :: post ++ extra ++ [s]).getLastD "" = s := getLastD_snoc _ _ _
      rw [l₁, l₂, if_pos rfl]; exact List.mem_singleton.mpr rfl
  have hmm := mapM_except_mem _ hm
  obtain ⟨e, he, hee⟩ := forall₂_left_mem hmm C.requested
  rw [hentry] at hee
  have hee' := (Except.ok.inj hee).symm
  have hcurve : (entries.foldl (fun d e => dictSet d e.1 e.2.1) []).lookup name =
      some (⟨pre ++ x :: post ++ extra ++ [s], pre ++ y :: post ++ extra ++ [s], op⟩ : DerivedCurve) := by
    have hfm : entries.foldl (fun d e => dictSet d e.1 e.2.1) [] =
        (entries.map (fun e => (e.1, e.2.1))).foldl (fun d e => dictSet d e.1 e.2) [] := by rw [List.foldl_map]
    rw [hfm]
    apply lookup_curves
    · intro w hw hwn
      obtain ⟨e', he', rfl⟩ := List.mem_map.mp hw
      obtain ⟨d', hd', hde⟩ := forall₂_right_mem hmm he'
      have := C.only d' hd' (by rw [(derivedEntry_points hdist hde).1]; exact congrArg _ hwn)
      subst this
      rw [hentry] at hde
      have := (Except.ok.inj hde)
      rw [← this]
    · left
      exact ⟨(e.1, e.2.1), List.mem_map.mpr ⟨e, he, rfl⟩, by rw [hee']⟩
  have hnm : derivedNameOf (pre ++ name :: post ++ [i] ++ [s]) = name := by
    have := derivedNameOf_eq pre (post ++ [i] ++ [s]) name hnd (by
      intro z hz
      have hkx := hkeyOf x hx
      have hzk : z ∈ pre ++ x :: post ++ [i] ++ [s] := by
        simp only [List.mem_append, List.mem_cons, List.not_mem_nil, or_false] at hz ⊢
        tauto
      obtain ⟨q, hq, hzq⟩ := forall₂_left_mem hkx hzk
      exact hv q hq z hzq)
    simpa using this
  refine ⟨isDerived_of_mem (n := name) (by simp) hnd, List.mem_flatMap.mpr ⟨e, he, by rw [hee']; exact hpoint⟩,
    _, r₁, r₂, rfl, hm₁, hm₂, by rw [hnm]; exact hcurve, hpair⟩

/-! ### C261 -/

/-- Lines with the same case key have the same time and lead. -/
def CaseFixesTime (f : Frame) (key : List Val → String) : Prop :=
  ∀ r ∈ f.rows, ∀ r' ∈ f.rows, key r = key r' → caseOf f r = caseOf f r'

variable {f : Frame} {p : AggParams} {init : List (String × List String)} {sv : String × List String}
  {parts : String → List String} {fix : List (String × List String)} {fv : String} {sts : List String}
  {rest : List (String × List String)}

/-- The row `o` of the table shows the bootstrap of the curve `op` of the statistic `st` of two series with the rows `rows₁`
and `rows₂` and the drawn positions `ids`: in the order of their cases the rows of both series agree case by case; the value
is computed from the scores of both series, every replicate from their scores at the same positions, and the limits are those
of the replicates for the requested alpha and method. -/
def ShowsPairedBootstrap (statOf : String → List (List Val) → Except PyErr PyNum) (s : BootSettings) (f : Frame)
    (op st : String) (rows₁ rows₂ : List (List Val)) (ids : List (List ℕ)) (o : BootOut) : Prop :=
  ∃ a₁ a₂, a₁.Perm rows₁ ∧ a₂.Perm rows₂ ∧ a₁.map (caseOf f) = a₂.map (caseOf f) ∧
    ∃ v dist x, o.value = toPyNum x ∧ (s.method ≠ .other → x = v) ∧ IsDerived statOf op st st a₁ a₂ v ∧
      List.Forall₂ (fun row z => ∃ K, K = positionsUsed (if s.cbb then Nat.sqrt rows₁.length else 1) row ∧
        K.length = rows₁.length ∧ (∀ j ∈ K, j < rows₁.length) ∧
        IsDerived statOf op st st (pick a₁ K) (pick a₂ K) z) ids dist ∧
      confidenceInterval dist v s.alpha s.method = .ok ⟨o.lower, x, o.upper⟩

theorem perm_of_keys {α β γ : Type} [DecidableEq β] (key : α → β) (g : α → γ) : ∀ (a b : List α),
    (a.map key).Perm (b.map key) → (∀ r ∈ a, ∀ r' ∈ b, key r = key r' → g r = g r') → (a.map g).Perm (b.map g) := by
  intro a
  induction a with
  | nil =>
    intro b h _
    have : b = [] := by simpa using h.symm
    subst this
    exact .refl _
  | cons r a ih =>
    intro b h hg
    have hmem : key r ∈ b.map key := h.mem_iff.mp (by simp)
    obtain ⟨r', hr', e⟩ := List.mem_map.mp hmem
    obtain ⟨b₁, b₂, rfl⟩ := List.append_of_mem hr'
    have h2 : (a.map key).Perm ((b₁ ++ b₂).map key) := by
      have h3 : ((b₁ ++ r' :: b₂).map key).Perm (key r :: (b₁ ++ b₂).map key) := by
        rw [← e]
        exact List.perm_middle.map key
      exact (List.Perm.cons_inv (h.trans h3))
    have h4 := ih (b₁ ++ b₂) h2 (fun z hz z' hz' => hg z (by simp [hz]) z' (by
      rcases List.mem_append.mp hz' with h | h <;> simp [h]))
    have h5 : ((b₁ ++ r' :: b₂).map g).Perm (g r :: (b₁ ++ b₂).map g) := by
      rw [hg r (by simp) r' (by simp) e.symm]
      exact List.perm_middle.map g
    exact (h4.cons (g r)).trans h5.symm

set_option maxHeartbeats 1000000 in
/-- The row of a named curve: its two series have the common cases, and the value and the limits are computed from the lines
and the values of the series. -/
theorem curve_row (statOf : String → List (List Val) → Except PyErr PyNum) (etb : List PyNum → List PyNum → PyNum)
    (s : BootSettings) (draws₁ draws₂ : ℕ → ℕ → List (List ℕ)) (k : ℕ) (hdraw : ∀ i n, IndexMatrix n k (draws₁ i n))
    (out : List BootOut) (R : OneAxisRun f p init sv parts fix fv sts rest) (key : List Val → String)
    (hkey : ∀ r ∈ f.rows, IsCaseKey f p.indyVar true r (key r)) (hindy : CaseFixesIndependent f p.indyVar key)
    (htime : CaseFixesTime f key) (hread : ∀ x ∈ init ++ [sv], ∀ v ∈ x.2, ∀ w ∈ parts v, ReadAlike w)
    (hk : ∀ st ∈ p.axis₁.stats, ∀ zs, zs ≠ [] → (∀ r ∈ zs, r ∈ f.rows) → statOf (lower st) zs ≠ .error .keyError)
    (pre post extra : List String) (x y st a b op name : String)
    (C : CurveNamed (p.config p.axis₁) pre post extra x y st a b op name)
    (h : bootRun statOf etb s draws₁ draws₂ f p = .ok out) (hne : out ≠ []) (i : String) (hi : i ∈ p.indyVals)
    (rows₁ rows₂ : List (List Val))
    (hr₁ : rows₁ = comparedRows f (init ++ [sv]) parts fix fv p.indyVar key (pre ++ x :: post) i st)
    (hr₂ : rows₂ = comparedRows f (init ++ [sv]) parts fix fv p.indyVar key (pre ++ y :: post) i st)
    (hn : (rows₁.map key).Nodup ∧ (rows₂.map key).Nodup) :
    (∃ o ∈ out, o.point = pre ++ name :: post ++ [i, st]) ∧ (rows₁ = [] ↔ rows₂ = []) ∧
    (rows₁.map (caseOf f)).Perm (rows₂.map (caseOf f)) ∧ (∀ r ∈ rows₁, r ∈ f.rows) ∧ (∀ r ∈ rows₂, r ∈ f.rows) ∧
    ∃ G : List (List Val), ∀ (n : ℕ) (o : BootOut), out[n]? = some o → o.point = pre ++ name :: post ++ [i, st] →
      (rows₁ = [] → o.value = .none ∧ o.lower = none ∧ o.upper = none) ∧
      (rows₁ ≠ [] → ∃ (st₁ st₂ : String) (w₁ w₂ : PyNum), (st₁ ∈ p.axis₁.stats ∧ st₂ ∈ p.axis₁.stats) ∧
        (lower st₁ = lower st ∧ lower st₂ = lower st) ∧
        (∀ r ∈ rows₁, cellAt r (f.cols.idxOf "stat_name") = .str st₁) ∧
        (∀ r ∈ rows₂, cellAt r (f.cols.idxOf "stat_name") = .str st₂) ∧
        (∃ data v x, sortData ⟨f.cols, G⟩ rows₁ = .ok data ∧ statOf (lower st) data = .ok v ∧ w₁ = toPyNum x ∧
          (s.method ≠ .other → x = v.cell)) ∧
        (∃ data v x, sortData ⟨f.cols, G⟩ rows₂ = .ok data ∧ statOf (lower st) data = .ok v ∧ w₂ = toPyNum x ∧
          (s.method ≠ .other → x = v.cell)) ∧
        (op = "DIFF_SIG" → ∃ x, derivedSig statOf etb s ⟨f.cols, G⟩ (lower st) rows₁ rows₂ w₁ w₂ (draws₁ n rows₁.length) =
          .ok (⟨o.lower, x, o.upper⟩, o.value)) ∧
        (op ≠ "ETB" → op ≠ "DIFF_SIG" → ∃ x, derivedBoot statOf etb s ⟨f.cols, G⟩ op rows₁ rows₂ (draws₁ n rows₁.length) =
          .ok ⟨o.lower, x, o.upper⟩ ∧ o.value = toPyNum x)) := by
  have hrv := requested_eq R
  have hg := equalize_ok R key hkey
  generalize hG : (p.axis₁.fcstVarVal.flatMap (fun q => q.2.map (fun s => (q.1, s)))).flatMap
      (keptRows f sv ((init ++ [sv]).map (fun x => (x.1, x.2.flatMap parts)) ++ fix) key) = G at hg
  have hsub : ∀ r ∈ G, r ∈ f.rows := by
    intro r hr
    rw [← hG] at hr
    unfold keptRows at hr
    simp only [List.mem_flatMap, List.mem_filter] at hr
    obtain ⟨_, _, h3⟩ := hr
    exact h3.1.1
  unfold bootRun at h
  rw [R.on, R.second] at h
  have ht : truthy (parseBool "True") = true := rfl
  rw [ht, if_pos rfl, hg] at h
  simp only [bind, Except.bind, List.isEmpty_nil, if_true] at h
  obtain ⟨o₁, ho, e⟩ : ∃ o₁, bootAxis statOf etb s draws₁ ⟨f.cols, G⟩ (p.config p.axis₁) = .ok o₁ ∧
      o₁ = out := by
    split at h
    · simp at h
    · next o₁ ho => exact ⟨o₁, ho, by simpa using h⟩
  subst e
  have hGe : G ≠ [] := by
    rintro rfl
    unfold bootAxis at ho
    rw [if_pos (by simp [Frame.isEmpty])] at ho
    exact hne (by simpa using ho.symm)
  obtain ⟨hreq, hpl⟩ := run_request R hsub
  have hfe := fields_eq hreq.fields
  have hkG : ∀ st ∈ (p.config p.axis₁).stats, ∀ zs, zs ≠ [] → (∀ r ∈ zs, r ∈ G) → statOf (lower st) zs ≠ .error .keyError :=
    fun st hst zs z1 z2 => hk st hst zs z1 (fun r hr => hsub r (z2 r hr))
  have hserR : (p.config p.axis₁).series = init ++ [sv] := R.series
  have hs : st ∈ p.axis₁.stats := C.first.2.2.1
  have hkeys : ((p.config p.axis₁).series.map Prod.fst).Nodup := by
    rw [hserR]
    have := R.names
    rw [List.map_append] at this
    exact (List.nodup_append.mp this).1
  obtain ⟨sp, var, vals, sq, hser, hpre, hpost, hx, hy, hxy⟩ := C.differs
  have hfor : ∀ z ∈ vals, List.Forall₂ (fun x q => x ∈ q.2) (pre ++ z :: post) (init ++ [sv]) := by
    intro z hz
    rw [← hserR, hser]
    exact List.rel_append hpre (.cons hz hpost)
  have hperm := common_keys R key hindy hread (hfor x hx) (hfor y hy) hs (i := i) (by
    intro v hv
    simp only [List.mem_cons, List.not_mem_nil, or_false] at hv
    rcases hv with rfl | rfl
    · rw [← hr₁]; exact hn.1
    · rw [← hr₂]; exact hn.2)
  rw [← hr₁, ← hr₂] at hperm
  have hs₁ : ∀ r ∈ rows₁, r ∈ f.rows := by rw [hr₁]; exact comparedRows_sub
  have hs₂ : ∀ r ∈ rows₂, r ∈ f.rows := by rw [hr₂]; exact comparedRows_sub
  have hcases := perm_of_keys key (caseOf f) rows₁ rows₂ hperm (fun r hr r' hr' => htime r (hs₁ r hr) r' (hs₂ r' hr'))
  have hempty : rows₁ = [] ↔ rows₂ = [] := by
    constructor
    · rintro rfl; simpa using hperm.symm
    · rintro rfl; simpa using hperm
  -- the rows of a plain point of the equalized data
  have hrowsOf : ∀ z ∈ vals, ∀ rows, pointRows ⟨f.cols, G⟩ (((p.config p.axis₁).fields.map Prod.fst).zip
      (pre ++ z :: post ++ [i, st])) (p.config p.axis₁).fcstVars.head? = .ok rows →
      rows = comparedRows f (init ++ [sv]) parts fix fv p.indyVar key (pre ++ z :: post) i st := by
    classical
    intro z hz rows hrows
    obtain ⟨as, v, e, h2, hv⟩ := forall₂_snoc (hfor z hz)
    have heq := equalized_point R key as v i st h2.length_eq hv hs
    rw [hG] at heq
    have hhead : (p.config p.axis₁).fcstVars.head? = some fv := by simp [AggParams.config, R.fcst]
    have hzip : ((init ++ [sv] ++ [(p.indyVar, p.indyVals)] ++ [("stat_name", p.axis₁.stats)]).map Prod.fst).zip
        (as ++ [v] ++ [i, st]) = pointRequest (init ++ [sv]) p.indyVar (as ++ [v]) i st := by
      unfold pointRequest
      rw [List.append_assoc, List.map_append, List.zip_append (by simp [h2.length_eq])]
      rfl
    rw [hfe, hrv, e, hzip, hhead] at hrows
    unfold pointRows at hrows
    split at hrows
    · simp at hrows
    · simp only [Except.ok.injEq] at hrows
      rw [← hrows, e]
      unfold comparedRows
      rw [← heq]
      apply List.filter_congr
      intro r hr
      rw [Bool.eq_iff_iff, decide_eq_true_iff]
      refine pointFilters_iff hreq.wf ?_ hr
      intro q hq
      have hfo : List.Forall₂ (fun x (l : List String) => x ∈ l) (as ++ [v] ++ [i, st])
          ((requestedValues (p.config p.axis₁)).map Prod.snd) := by
        rw [hrv, List.forall₂_map_right_iff]
        rw [show as ++ [v] ++ [i, st] = as ++ [v] ++ [i] ++ [st] by simp]
        exact List.rel_append (List.rel_append (List.rel_append h2 (.cons hv .nil)) (.cons hi .nil)) (.cons hs .nil)
      unfold pointRequest at hq
      have hq2 : q.2 ∈ as ++ [v] ++ [i, st] := by
        rcases List.mem_append.mp hq with h | h
        · exact List.mem_append_left _ (List.of_mem_zip h).2
        · simp only [List.mem_cons, List.not_mem_nil, or_false] at h
          rcases h with rfl | rfl <;> simp
      obtain ⟨l, hl, hx⟩ := forall₂_mem_any hfo hq2
      obtain ⟨w, hw, rfl⟩ := List.mem_map.mp hl
      exact hreq.values w hw _ hx
  -- the loop
  have he : (⟨f.cols, G⟩ : Frame).isEmpty = false := by
    have h2 := List.ne_nil_of_mem R.forecast
    unfold Frame.isEmpty
    cases hc : f.cols <;> cases hr : G <;> simp_all
  unfold bootAxis at ho
  rw [he] at ho
  simp only [Bool.false_eq_true, if_false] at ho
  cases hm : (p.config p.axis₁).derived.mapM (derivedEntry (p.config p.axis₁)) with
  | error e => rw [hm] at ho; simp [bind, Except.bind] at ho
  | ok entries =>
    rw [hm] at ho
    simp only [bind, Except.bind] at ho
    split at ho
    · simp at ho
    · next st' hst =>
      simp only [Except.ok.injEq] at ho
      obtain ⟨s₁, h₁, h₂⟩ := foldlM_except_append _ _ _ _ hst
      have hnd := plain_not_derived (c := p.config p.axis₁) (fun q hq v hm => hpl q (hfe ▸ hq) v hm)
      obtain ⟨g1, -, g3, g4, g5⟩ := boot_results hreq hkG hdraw _ (fun q hq => ⟨hnd q hq, hq⟩) (by simp) h₁
      simp only [List.length_nil, Nat.zero_add] at g5
      have g1' : ∀ w ∈ s₁.results, w.1 ∈ (p.config p.axis₁).plainPoints ∧ KeepsRows ⟨f.cols, G⟩ (p.config p.axis₁) w.1 w.2 ∧
          KeepsValue statOf s ⟨f.cols, G⟩ (p.config p.axis₁) w.1 w.2 := by
        intro w hw
        rcases g1 w hw with h | h
        · simp at h
        · exact h
      have hder : ∀ q ∈ entries.flatMap (fun e => e.2.2), isDerivedPoint (some q) = true := by
        intro q hq
        obtain ⟨e, he, hpe⟩ := List.mem_flatMap.mp hq
        obtain ⟨d, -, hde⟩ := forall₂_right_mem (mapM_except_mem _ hm) he
        exact (derivedEntry_points hreq.fields hde).2 q hpe
      obtain ⟨outs, e2, hpts, hval⟩ := boot_derived _ hder h₂
      obtain ⟨new, n1, n2, -⟩ := boot_loop _ h₁
      simp only [List.nil_append] at n1
      obtain ⟨d1, d2, cv, r₁, r₂, hcv', m₁, m₂, hlook, hpair⟩ := curve_series hreq.fields hkeys hpl C hi hm
        (fun w hw => (g1' w hw).1) g4 g3
      have hcv : cv.op = op := by rw [hcv']
      subst ho
      refine ⟨?_, hempty, hcases, hs₁, hs₂, G, ?_⟩
      · rw [← hpts] at d2
        obtain ⟨o, ho, e⟩ := List.mem_map.mp d2
        exact ⟨o, by rw [e2]; exact List.mem_append_right _ ho, e⟩
      · intro n o hno hpt
        have hnl : ¬ n < s₁.out.length := by
          intro hlt
          rw [e2, List.getElem?_append_left hlt] at hno
          have : o.point ∈ (p.config p.axis₁).plainPoints := by
            rw [← n2, ← n1]
            exact List.mem_map_of_mem (List.mem_of_getElem? hno)
          have := hnd _ this
          rw [hpt, d1] at this
          simp at this
        rw [e2, List.getElem?_append_right (by omega)] at hno
        obtain ⟨old, hv⟩ := hval _ o hno
        rw [show s₁.out.length + (n - s₁.out.length) = n by omega, hpt] at hv
        obtain ⟨⟨q₁, k1, k2⟩, kv₁⟩ := (g1' _ m₁).2
        obtain ⟨⟨q₂, k3, k4⟩, kv₂⟩ := (g1' _ m₂).2
        simp only [KeepsValue] at k1 k2 k3 k4 kv₁ kv₂
        rw [k2] at kv₁
        rw [k4] at kv₂
        obtain ⟨-, st₁, hst₁, hps₁, hcell₁⟩ := plain_rows hreq (g1' _ m₁).1 k1
        obtain ⟨-, st₂, hst₂, hps₂, hcell₂⟩ := plain_rows hreq (g1' _ m₂).1 k3
        have hq₁ := hrowsOf x hx q₁ k1
        have hq₂ := hrowsOf y hy q₂ k3
        rw [← hr₁] at hq₁
        rw [← hr₂] at hq₂
        subst hq₁
        subst hq₂
        unfold derivedPointBoot at hv
        rw [hlook] at hv
        simp only [hpair, k2, k4, hcv, bind, Except.bind] at hv
        cases hcd : checkDerived f.cols op (fullComponents (p.config p.axis₁).groups cv.first (pre ++ name :: post ++ [i, st]))
            (fullComponents (p.config p.axis₁).groups cv.second (pre ++ name :: post ++ [i, st])) q₁ q₂ with
        | error e => rw [hcd] at hv; simp at hv
        | ok t =>
          rw [hcd] at hv
          have ht := checkDerived_ok hcd
          constructor
          · intro h0
            have : t = false := by rw [ht, h0]; rfl
            subst this
            simp only [Bool.false_eq_true, if_false, Except.ok.injEq, Prod.mk.injEq] at hv
            exact ⟨hv.1.symm, hv.2.1.symm, hv.2.2.symm⟩
          · intro h0
            have h0' : q₂ ≠ [] := fun h => h0 (hempty.mpr h)
            have : t = true := by
              rw [ht]
              rw [List.isEmpty_eq_false_iff.mpr h0, List.isEmpty_eq_false_iff.mpr h0']; rfl
            subst this
            have hstat : ∀ (rows : List (List Val)) (w : String) , (∀ old, pointStat (p.config p.axis₁).stats
                (pre ++ w :: post ++ [i, st]) old = lower st) := by
              intro _ w old
              rw [show pre ++ w :: post ++ [i, st] = pre ++ w :: post ++ [i] ++ [st] by simp]
              exact pointStat_last _ _ _ _ hs
            have hcell : ∀ (rows : List (List Val)) (s' : String), (∀ r ∈ rows, HasCell ⟨f.cols, G⟩ r "stat_name" (.str s')) →
                ∀ r ∈ rows, cellAt r (f.cols.idxOf "stat_name") = .str s' := by
              intro rows s' hc r hr
              obtain ⟨j, hj⟩ : ∃ j, (⟨f.cols, G⟩ : Frame).idx? "stat_name" = some j := by
                cases hx : (⟨f.cols, G⟩ : Frame).idx? "stat_name" with
                | some j => exact ⟨j, rfl⟩
                | none =>
                  exfalso
                  unfold Frame.idx? at hx
                  rw [List.findIdx?_eq_none_iff] at hx
                  simpa using hx _ R.statistic
              rw [← (idx?_eq_idxOf hj).1]
              exact hasCell_unique hj (hc r hr)
            have e₁ : lower st₁ = lower st := (hps₁ "").symm.trans (hstat [] x "")
            have e₂ : lower st₂ = lower st := (hps₂ "").symm.trans (hstat [] y "")
            rw [hstat [] x ""] at kv₁
            rw [hstat [] y ""] at kv₂
            rw [hstat [] name old] at hv
            refine ⟨st₁, st₂, r₁.value, r₂.value, ⟨hst₁, hst₂⟩, ⟨e₁, e₂⟩, hcell _ _ (hcell₁ R.statistic),
              hcell _ _ (hcell₂ R.statistic), kv₁ h0, kv₂ h0', ?_, ?_⟩
            · intro hop
              have hop1 : op ≠ "ETB" := by rw [hop]; decide
              simp only [if_true] at hv
              rw [if_neg hop1, if_pos hop] at hv
              split at hv
              · simp at hv
              · next w hw =>
                simp only [Except.ok.injEq, Prod.mk.injEq] at hv
                exact ⟨w.1.value, by rw [hw, ← hv.1, ← hv.2.1, ← hv.2.2]⟩
            · intro hop1 hop2
              simp only [if_true, hop1, hop2, if_false] at hv
              split at hv
              · simp at hv
              · next w hw =>
                simp only [Except.ok.injEq, Prod.mk.injEq] at hv
                exact ⟨w.value, by rw [hw, ← hv.2.1, ← hv.2.2], hv.1.symm⟩

/-- C261: in a run with event equalization and bootstrapping every requested curve has a row for every independent value.
If no case occurs twice in its two series, the row shows the paired bootstrap of the common cases of both series; without
such cases value and limits are missing. -/
theorem C261_curve_limits (statOf : String → List (List Val) → Except PyErr PyNum) (etb : List PyNum → List PyNum → PyNum)
    (s : BootSettings) (draws₁ draws₂ : ℕ → ℕ → List (List ℕ)) (k : ℕ) (hdraw : ∀ i n, IndexMatrix n k (draws₁ i n))
    (out : List BootOut) (R : OneAxisRun f p init sv parts fix fv sts rest) (key : List Val → String)
    (hkey : ∀ r ∈ f.rows, IsCaseKey f p.indyVar true r (key r)) (hindy : CaseFixesIndependent f p.indyVar key)
    (htime : CaseFixesTime f key) (hread : ∀ x ∈ init ++ [sv], ∀ v ∈ x.2, ∀ w ∈ parts v, ReadAlike w)
    (hk : ∀ st ∈ p.axis₁.stats, ∀ zs, zs ≠ [] → (∀ r ∈ zs, r ∈ f.rows) → statOf (lower st) zs ≠ .error .keyError)
    (pre post extra : List String) (x y st a b op name : String)
    (C : CurveRequest (p.config p.axis₁) pre post extra x y st a b op name)
    (h : bootRun statOf etb s draws₁ draws₂ f p = .ok out) (hne : out ≠ []) (i : String) (hi : i ∈ p.indyVals)
    (rows₁ rows₂ : List (List Val))
    (hr₁ : rows₁ = comparedRows f (init ++ [sv]) parts fix fv p.indyVar key (pre ++ x :: post) i st)
    (hr₂ : rows₂ = comparedRows f (init ++ [sv]) parts fix fv p.indyVar key (pre ++ y :: post) i st)
    (hn : (rows₁.map key).Nodup ∧ (rows₂.map key).Nodup) :
    (∃ o ∈ out, o.point = pre ++ name :: post ++ [i, st]) ∧
    ∀ (n : ℕ) (o : BootOut), out[n]? = some o → o.point = pre ++ name :: post ++ [i, st] →
      (rows₁ = [] ↔ rows₂ = []) ∧ (rows₁ = [] → o.value = .none ∧ o.lower = none ∧ o.upper = none) ∧
      (rows₁ ≠ [] → ShowsPairedBootstrap statOf s f op (lower st) rows₁ rows₂ (draws₁ n rows₁.length) o) := by
  obtain ⟨hex, hempty, hcases, hs₁, hs₂, G, hrow⟩ := curve_row statOf etb s draws₁ draws₂ k hdraw out R key hkey hindy htime hread
    hk pre post extra x y st a b op name C.toCurveNamed h hne i hi rows₁ rows₂ hr₁ hr₂ hn
  refine ⟨hex, fun n o hno hpt => ⟨hempty, (hrow n o hno hpt).1, fun h0 => ?_⟩⟩
  obtain ⟨st₁, st₂, w₁, w₂, ⟨hst₁, hst₂⟩, ⟨e₁, e₂⟩, hc₁, hc₂, -, -, -, hboot⟩ := (hrow n o hno hpt).2 h0
  have hop1 : op ≠ "ETB" := by rcases C.operation with h | h | h | h <;> rw [h] <;> decide
  have hop2 : op ≠ "DIFF_SIG" := by rcases C.operation with h | h | h | h <;> rw [h] <;> decide
  have hop3 : ValueOperation op := by
    rcases C.operation with h | h | h | h
    · exact Or.inl h
    · exact Or.inr (Or.inr (Or.inl h))
    · exact Or.inr (Or.inr (Or.inr (Or.inl h)))
    · exact Or.inr (Or.inr (Or.inr (Or.inr h)))
  obtain ⟨xv, hb, ho⟩ := hboot hop1 hop2
  have hw : ∀ r ∈ rows₁ ++ rows₂, r.length = f.cols.length := by
    intro r hr
    rcases List.mem_append.mp hr with h | h
    · exact R.input.wf r (hs₁ r h)
    · exact R.input.wf r (hs₂ r h)
  obtain ⟨a₁, a₂, p₁, p₂, hcs, v, dist, hv1, hv2, hv3⟩ := C105_same_cases_partial statOf etb s ⟨f.cols, G⟩ op rows₁ rows₂
    (draws₁ n rows₁.length) st₁ st₂ k _ hop3 R.statistic h0 hw hc₁ hc₂ hcases (hdraw _ _)
    (fun zs z1 z2 => hk st₁ hst₁ zs z1 (fun r hr => hs₁ r (z2 r hr)))
    (fun zs z1 z2 => hk st₂ hst₂ zs z1 (fun r hr => hs₂ r (z2 r hr))) hb
  rw [e₁, e₂] at hv1 hv2
  exact ⟨a₁, a₂, p₁, p₂, hcs, v, dist, xv, ho, fun hm => ci_value hm hv3, hv1, hv2, hv3⟩

theorem text_split {a b c d : String} (h : a ++ " " ++ b = c ++ " " ++ d) (hb : ' ' ∉ b.toList) (hd : ' ' ∉ d.toList) :
    a = c ∧ b = d := by
  have e : a.toList ++ ' ' :: b.toList = c.toList ++ ' ' :: d.toList := by
    have := congrArg String.toList h
    simpa [String.toList_append] using this
  have e2 := blank_split e hb hd
  have e3 : a.toList = c.toList := by
    rw [e2] at e
    exact List.append_cancel_right e
  exact ⟨String.ext_iff.mpr e3, String.ext_iff.mpr e2⟩

/-- C261: lines of the same case have the same time and lead if the texts of leads and independent values have no blanks and
equal texts of times and leads mean equal cells. -/
theorem C261_case_fixes_time (indy : String) (key : List Val → String) (I : EqInput f indy true)
    (hkey : ∀ r ∈ f.rows, IsCaseKey f indy true r (key r))
    (hb : ∀ r ∈ f.rows, ∀ c ∈ ["fcst_lead", indy], ∀ v, HasCell f r c v → ' ' ∉ v.text.toList)
    (ht : ∀ r ∈ f.rows, ∀ r' ∈ f.rows, ∀ c ∈ [timeColumn f, "fcst_lead"], ∀ v v', HasCell f r c v → HasCell f r' c v' →
      v.text = v'.text → cellValue v = cellValue v') : CaseFixesTime f key := by
  have htc : timeColumn f = (if "fcst_valid_beg" ∈ f.cols then "fcst_valid_beg" else "fcst_valid") ∧ timeColumn f ∈ f.cols := by
    unfold timeColumn
    by_cases h : "fcst_valid_beg" ∈ f.cols
    · simp [h]
    · have := I.valid.resolve_left h
      simp [h, this]
  have hcell : ∀ r c v, c ∈ f.cols → HasCell f r c v → cellAt r (f.cols.idxOf c) = v := by
    intro r c v hc hv
    obtain ⟨j, hj⟩ : ∃ j, f.idx? c = some j := by
      cases hx : f.idx? c with
      | some j => exact ⟨j, rfl⟩
      | none =>
        exfalso
        unfold Frame.idx? at hx
        rw [List.findIdx?_eq_none_iff] at hx
        simpa using hx _ hc
    rw [← (idx?_eq_idxOf hj).1]
    exact hasCell_unique hj hv
  intro r hr r' hr' e
  obtain ⟨v, l, h1, h2, h3⟩ := hkey r hr
  obtain ⟨v', l', h1', h2', h3'⟩ := hkey r' hr'
  rw [← htc.1] at h1 h1'
  have hvl : v.text ++ " " ++ l.text = v'.text ++ " " ++ l'.text := by
    split at h3
    · next hc =>
      rw [if_pos hc] at h3'
      obtain ⟨w, hw, h3⟩ := h3
      obtain ⟨w', hw', h3'⟩ := h3'
      rw [h3, h3'] at e
      exact (text_split e (hb r hr indy (by simp) w hw) (hb r' hr' indy (by simp) w' hw')).1
    · next hc =>
      rw [if_neg hc] at h3'
      rw [← h3, ← h3', e]
  obtain ⟨e1, e2⟩ := text_split hvl (hb r hr _ (by simp) l h2) (hb r' hr' _ (by simp) l' h2')
  unfold caseOf
  rw [hcell r _ v htc.2 h1, hcell r' _ v' htc.2 h1', hcell r _ l I.lead h2, hcell r' _ l' I.lead h2',
    ht r hr r' hr' _ (by simp) v v' h1 h1' e1, ht r hr r' hr' _ (by simp) l l' h2 h2' e2]

/-- The value of SL1L2 lines, as a number. -/
theorem prepared_num {pairs : List Val → List Pair} (L : Sl1l2Lines f pairs) {zs : List (List Val)} (z1 : zs ≠ [])
    (z2 : ∀ r ∈ zs, r ∈ f.rows) {st : String} (hm : st ∈ ["fbar", "obar", "fobar", "ffbar", "oobar", "me", "mse", "bcmse"]) :
    ∃ v : ℚ, preparedStat .sl1l2 f st zs = .ok (.num v) ∧ PoolScore st (zs.flatMap pairs) (.num v) := by
  obtain ⟨v, hv, hsc⟩ := prepared_score L z1 z2 hm
  obtain ⟨v', rfl⟩ : ∃ v', v = .num v' := by
    simp only [List.mem_cons, List.not_mem_nil, or_false] at hm
    rcases hm with h | h | h | h | h | h | h | h
    · exact ⟨_, hsc.fbar h⟩
    · exact ⟨_, hsc.obar h⟩
    · exact ⟨_, hsc.fobar h⟩
    · exact ⟨_, hsc.ffbar h⟩
    · exact ⟨_, hsc.oobar h⟩
    · exact ⟨_, hsc.me h⟩
    · exact ⟨_, hsc.mse h⟩
    · obtain ⟨y, hy, -⟩ := hsc.bcmse h
      exact ⟨_, hy⟩
  exact ⟨v', hv, hsc⟩

/-- C261, for a run on SL1L2 lines: the lines of the two series can be listed in pairs of the same time and lead.  The value of
the curve is computed from the scores of the pooled matched pairs of both sides; every replicate is computed from the
scores of both sides of as many pairs of lines, drawn with repetition; the limits are those of the replicates for the
requested alpha and method. -/
theorem C261_sl1l2 (etb : List PyNum → List PyNum → PyNum) (s : BootSettings) (hm : s.method ≠ .other)
    (draws₁ draws₂ : ℕ → ℕ → List (List ℕ)) (k : ℕ) (hdraw : ∀ i n, IndexMatrix n k (draws₁ i n))
    (out : List BootOut) (R : OneAxisRun f p init sv parts fix fv sts rest) (key : List Val → String)
    (hkey : ∀ r ∈ f.rows, IsCaseKey f p.indyVar true r (key r)) (hindy : CaseFixesIndependent f p.indyVar key)
    (htime : CaseFixesTime f key) (hread : ∀ x ∈ init ++ [sv], ∀ v ∈ x.2, ∀ w ∈ parts v, ReadAlike w)
    (pairs : List Val → List Pair) (L : Sl1l2Lines f pairs)
    (hs : ∀ st ∈ p.axis₁.stats, lower st ∈ ["fbar", "obar", "fobar", "ffbar", "oobar", "me", "mse", "bcmse"])
    (pre post extra : List String) (x y st a b op name : String)
    (C : CurveRequest (p.config p.axis₁) pre post extra x y st a b op name)
    (h : bootRun (preparedStat .sl1l2 f) etb s draws₁ draws₂ f p = .ok out) (hne : out ≠ []) (i : String) (hi : i ∈ p.indyVals)
    (rows₁ rows₂ : List (List Val))
    (hr₁ : rows₁ = comparedRows f (init ++ [sv]) parts fix fv p.indyVar key (pre ++ x :: post) i st)
    (hr₂ : rows₂ = comparedRows f (init ++ [sv]) parts fix fv p.indyVar key (pre ++ y :: post) i st)
    (hn : (rows₁.map key).Nodup ∧ (rows₂.map key).Nodup) (o : BootOut) (ho : o ∈ out)
    (hpt : o.point = pre ++ name :: post ++ [i, st]) (hr : rows₁ ≠ [])
    (score : List (List Val × List Val) → Option ℚ → Prop)
    (hscore : score = fun ps v => ∃ q₁ q₂ : ℚ, PoolScore (lower st) (ps.flatMap (fun z => pairs z.1)) (.num q₁) ∧
      PoolScore (lower st) (ps.flatMap (fun z => pairs z.2)) (.num q₂) ∧ v = derivedOf op q₁ q₂) :
    ∃ ps : List (List Val × List Val), (ps.map Prod.fst).Perm rows₁ ∧ (ps.map Prod.snd).Perm rows₂ ∧
      (∀ z ∈ ps, caseOf f z.1 = caseOf f z.2) ∧ score ps o.value.cell ∧
      ∃ (sims : List (List (List Val × List Val))) (dist : List (Option ℚ)), sims.length = k ∧
        (∀ zs ∈ sims, zs.length = ps.length ∧ ∀ z ∈ zs, z ∈ ps) ∧ List.Forall₂ score sims dist ∧
        confidenceInterval dist o.value.cell s.alpha s.method = .ok ⟨o.lower, o.value.cell, o.upper⟩ := by
  have hst : st ∈ p.axis₁.stats := C.first.2.2.1
  obtain ⟨n, hno⟩ := List.getElem?_of_mem ho
  obtain ⟨-, hall⟩ := C261_curve_limits (preparedStat .sl1l2 f) etb s draws₁ draws₂ k hdraw out R key hkey hindy htime hread
    (by
      intro st hst zs z1 z2
      obtain ⟨v, hv, -⟩ := prepared_num L z1 z2 (hs st hst)
      rw [hv]; simp) pre post extra x y st a b op name C h hne i hi rows₁ rows₂ hr₁ hr₂ hn
  obtain ⟨-, -, hshow⟩ := hall n o hno hpt
  obtain ⟨a₁, a₂, p₁, p₂, hcs, v, dist, w, hov, hwv, hd, hf, hc⟩ := hshow hr
  have hw := hwv hm
  subst hw
  have hs₁ : ∀ r ∈ rows₁, r ∈ f.rows := by rw [hr₁]; exact comparedRows_sub
  have hs₂ : ∀ r ∈ rows₂, r ∈ f.rows := by rw [hr₂]; exact comparedRows_sub
  have hlen : a₁.length = a₂.length := by simpa using congrArg List.length hcs
  have hcell : o.value.cell = w := by rw [hov]; cases w <;> rfl
  have f1 : (a₁.zip a₂).map Prod.fst = a₁ := List.map_fst_zip (by omega)
  have f2 : (a₁.zip a₂).map Prod.snd = a₂ := List.map_snd_zip (by omega)
  have hop : op ≠ "DIFF_SIG" := by rcases C.operation with h | h | h | h <;> rw [h] <;> decide
  have hsc : ∀ ps : List (List Val × List Val), ps ≠ [] → (∀ z ∈ ps, z ∈ a₁.zip a₂) → ∀ z,
      IsDerived (preparedStat .sl1l2 f) op (lower st) (lower st) (ps.map Prod.fst) (ps.map Prod.snd) z → score ps z := by
    intro ps hps hsub z hz
    obtain ⟨v₁, e₁, g₁⟩ := prepared_num L (zs := ps.map Prod.fst) (by simpa using hps) (by
      intro r hr
      obtain ⟨z, hz, rfl⟩ := List.mem_map.mp hr
      exact hs₁ _ (p₁.mem_iff.mp (f1 ▸ List.mem_map_of_mem (hsub z hz)))) (hs st hst)
    obtain ⟨v₂, e₂, g₂⟩ := prepared_num L (zs := ps.map Prod.snd) (by simpa using hps) (by
      intro r hr
      obtain ⟨z, hz, rfl⟩ := List.mem_map.mp hr
      exact hs₂ _ (p₂.mem_iff.mp (f2 ▸ List.mem_map_of_mem (hsub z hz)))) (hs st hst)
    obtain ⟨u₁, u₂, b₁, b₂, b₃, -⟩ := hz
    rw [e₁] at b₁
    rw [e₂] at b₂
    simp only [Except.ok.injEq] at b₁ b₂
    have := b₃ v₁ v₂ b₁.symm b₂.symm
    rw [if_neg hop] at this
    rw [List.flatMap_map] at g₁ g₂
    rw [hscore]
    exact ⟨v₁, v₂, g₁, g₂, this⟩
  have hane : a₁ ≠ [] := by rintro rfl; exact hr (List.nil_perm.mp p₁)
  have hzne : a₁.zip a₂ ≠ [] := by
    intro h0
    rw [h0] at f1
    exact hane f1.symm
  have hzl : (a₁.zip a₂).length = rows₁.length := by rw [← p₁.length_eq, ← f1]; simp
  have hid := hdraw n rows₁.length
  refine ⟨a₁.zip a₂, by rw [f1]; exact p₁, by rw [f2]; exact p₂, ?_, by
    rw [hcell]; exact hsc _ hzne (fun _ h => h) w (by rw [f1, f2]; exact hd),
    (draws₁ n rows₁.length).map (fun row => pick (a₁.zip a₂) (positionsUsed (if s.cbb then Nat.sqrt rows₁.length else 1) row)),
    dist, by rw [List.length_map]; exact hid.1, ?_, ?_, by rw [hcell]; exact hc⟩
  · intro z hz
    obtain ⟨j, hj⟩ := List.getElem?_of_mem hz
    rw [List.getElem?_zip_eq_some] at hj
    have := congrArg (fun l => l[j]?) hcs
    simp only [List.getElem?_map, hj.1, hj.2, Option.map_some, Option.some.injEq] at this
    exact this
  · intro zs hz
    obtain ⟨row, hrow, rfl⟩ := List.mem_map.mp hz
    exact ⟨pick_length (by rw [hzl]; exact (hid.2 row hrow).1) (by rw [hzl]; exact (hid.2 row hrow).2), fun z hz => pick_mem hz⟩
  · rw [List.forall₂_map_left_iff]
    refine forall₂_imp_left hf ?_
    rintro row z hrow ⟨K, rfl, -, -, hz⟩
    refine hsc _ (pick_ne hzne _ (by rw [hzl]; exact (hid.2 row hrow).1) (by rw [hzl]; exact (hid.2 row hrow).2))
      (fun z hz => pick_mem hz) z ?_
    rw [pick_map, pick_map, f1, f2]
    exact hz

/-- C261 for models verified against the same observations: the difference of two observed means is 0 in the table, and as all
replicates are 0 too, it has no limits. -/
theorem C261_same_observations (etb : List PyNum → List PyNum → PyNum) (s : BootSettings) (hm : s.method = .perc)
    (draws₁ draws₂ : ℕ → ℕ → List (List ℕ)) (k : ℕ) (hk : k ≠ 0) (hdraw : ∀ i n, IndexMatrix n k (draws₁ i n))
    (out : List BootOut) (R : OneAxisRun f p init sv parts fix fv sts rest) (key : List Val → String)
    (hkey : ∀ r ∈ f.rows, IsCaseKey f p.indyVar true r (key r)) (hindy : CaseFixesIndependent f p.indyVar key)
    (htime : CaseFixesTime f key) (hread : ∀ x ∈ init ++ [sv], ∀ v ∈ x.2, ∀ w ∈ parts v, ReadAlike w)
    (pairs : List Val → List Pair) (L : Sl1l2Lines f pairs)
    (hs : ∀ st ∈ p.axis₁.stats, lower st ∈ ["fbar", "obar", "fobar", "ffbar", "oobar", "me", "mse", "bcmse"])
    (hobs : ∀ r ∈ f.rows, ∀ r' ∈ f.rows, caseOf f r = caseOf f r' → (pairs r).map Prod.snd = (pairs r').map Prod.snd)
    (pre post extra : List String) (x y st a b name : String)
    (C : CurveRequest (p.config p.axis₁) pre post extra x y st a b "DIFF" name)
    (h : bootRun (preparedStat .sl1l2 f) etb s draws₁ draws₂ f p = .ok out) (hne : out ≠ []) (i : String) (hi : i ∈ p.indyVals)
    (rows₁ rows₂ : List (List Val))
    (hr₁ : rows₁ = comparedRows f (init ++ [sv]) parts fix fv p.indyVar key (pre ++ x :: post) i st)
    (hr₂ : rows₂ = comparedRows f (init ++ [sv]) parts fix fv p.indyVar key (pre ++ y :: post) i st)
    (hn : (rows₁.map key).Nodup ∧ (rows₂.map key).Nodup) (o : BootOut) (ho : o ∈ out)
    (hpt : o.point = pre ++ name :: post ++ [i, st]) (hr : rows₁ ≠ []) (hl : lower st = "obar" ∨ lower st = "oobar") :
    o.value.cell = some 0 ∧ o.lower = none ∧ o.upper = none := by
  obtain ⟨ps, p₁, p₂, hcs, hsc, sims, dist, hlen, hsim, hf, hc⟩ := C261_sl1l2 etb s (by rw [hm]; decide) draws₁ draws₂ k hdraw out
    R key hkey hindy htime hread pairs L hs pre post extra x y st a b "DIFF" name C h hne i hi rows₁ rows₂ hr₁ hr₂ hn o ho hpt hr _
    rfl
  have hs₁ : ∀ r ∈ rows₁, r ∈ f.rows := by rw [hr₁]; exact comparedRows_sub
  have hs₂ : ∀ r ∈ rows₂, r ∈ f.rows := by rw [hr₂]; exact comparedRows_sub
  have hzero : ∀ (zs : List (List Val × List Val)) (v : Option ℚ), (∀ z ∈ zs, z ∈ ps) →
      (∃ q₁ q₂ : ℚ, PoolScore (lower st) (zs.flatMap (fun z => pairs z.1)) (.num q₁) ∧
        PoolScore (lower st) (zs.flatMap (fun z => pairs z.2)) (.num q₂) ∧ v = derivedOf "DIFF" q₁ q₂) → v = some 0 := by
    rintro zs v hsub ⟨q₁, q₂, g₁, g₂, rfl⟩
    have hmap : (zs.flatMap (fun z => pairs z.1)).map Prod.snd = (zs.flatMap (fun z => pairs z.2)).map Prod.snd := by
      clear g₁ g₂
      induction zs with
      | nil => rfl
      | cons z zs ih =>
        simp only [List.flatMap_cons, List.map_append]
        rw [ih (fun w hw => hsub w (by simp [hw])), hobs z.1
          (hs₁ _ (p₁.mem_iff.mp (List.mem_map_of_mem (hsub z (by simp))))) z.2
          (hs₂ _ (p₂.mem_iff.mp (List.mem_map_of_mem (hsub z (by simp))))) (hcs z (hsub z (by simp)))]
    have havg : ∀ g : ℚ → ℚ, avg (fun p : Pair => g p.2) (zs.flatMap (fun z => pairs z.1)) =
        avg (fun p : Pair => g p.2) (zs.flatMap (fun z => pairs z.2)) := by
      intro g
      have e : ∀ l : List Pair, l.map (fun p : Pair => g p.2) = (l.map Prod.snd).map g := fun l => by simp
      have e' : ∀ l : List Pair, l.length = (l.map Prod.snd).length := fun l => by simp
      unfold avg
      rw [e, e, e' (zs.flatMap (fun z => pairs z.1)), e' (zs.flatMap (fun z => pairs z.2)), hmap]
    have : q₁ = q₂ := by
      rcases hl with hl | hl
      · have h1 := g₁.obar hl
        have h2 := g₂.obar hl
        have hO : avg (Prod.snd : Pair → ℚ) _ = avg (Prod.snd : Pair → ℚ) _ := havg id
        rw [hO] at h1
        simp only [PyNum.num.injEq] at h1 h2
        rw [h1, h2]
      · have h1 := g₁.oobar hl
        have h2 := g₂.oobar hl
        rw [havg (fun x => x * x)] at h1
        simp only [PyNum.num.injEq] at h1 h2
        rw [h1, h2]
    subst this
    simp [derivedOf]
  have hv := hzero ps _ (fun _ h => h) hsc
  have hd : ∀ d ∈ dist, d = some 0 := by
    intro d hd
    obtain ⟨zs, hz, e⟩ := forall₂_right_mem hf hd
    exact hzero zs d (hsim zs hz).2 e
  have hne : some 0 ∈ dist := by
    cases dist with
    | nil =>
      have := hf.length_eq
      simp [hlen] at this
      exact absurd this hk
    | cons d dist => rw [hd d (by simp)]; simp
  refine ⟨hv, ?_⟩
  rw [hv, hm, (C31_no_bounds dist s.alpha 0 0 .perc).2 (fun d h => Or.inr (hd d h)) hne] at hc
  simp only [Except.ok.injEq, BootResult.mk.injEq] at hc
  exact ⟨hc.1.symm, hc.2.2.symm⟩

/-! ### Example -/

theorem exDiff_boot : bootRun (preparedStat .sl1l2 exSlFrame) (fun _ _ => .none) ⟨1 / 2, .perc, false⟩ threeDraws threeDraws
    exSlFrame exDiffParams = .ok
    [⟨["A", "6", "ME"], some "TMP", .num 1, none, none, 2⟩, ⟨["A", "6", "OBAR"], some "TMP", .num 2, none, none, 2⟩,
     ⟨["B", "6", "ME"], some "TMP", .num 2, some (1 / 10), some (29 / 5), 2⟩,
     ⟨["B", "6", "OBAR"], some "TMP", .num 2, none, none, 2⟩,
     ⟨["DIFF(A TMP ME-B TMP ME)", "6", "ME"], some "TMP", .num (-1), some (-3), some 0, 0⟩,
     ⟨["DIFF(A TMP OBAR-B TMP OBAR)", "6", "OBAR"], some "TMP", .num 0, none, none, 0⟩] := by decide +kernel

theorem exSl_time : CaseFixesTime exSlFrame exRunKey := by
  unfold CaseFixesTime
  decide +kernel

theorem exSl_indy : CaseFixesIndependent exSlFrame "fcst_lead" exRunKey :=
  C201_case_fixes_independent "fcst_lead" exRunKey exSl_input.input exSl_key (Or.inl rfl)
    (fun r hr v hv => by rw [exSl_lead r hr v hv]; decide)
    (fun r hr r' hr' v v' hv hv' _ => by rw [exSl_lead r hr v hv, exSl_lead r' hr' v' hv'])

theorem exSl_read : ∀ x ∈ [] ++ [("model", ["A", "B"])], ∀ v ∈ x.2, ∀ w ∈ (fun v => [v]) v, ReadAlike w := by
  intro x hx v hv w hw
  obtain rfl : x = ("model", ["A", "B"]) := by simpa using hx
  exact ⟨(exRun_input.texts v hv w hw).2.1, (exRun_input.texts v hv w hw).2.2⟩

/-- Model A has common cases in the example. -/
theorem exDiff_some : comparedRows exSlFrame ([] ++ [("model", ["A", "B"])]) (fun v => [v]) [] "TMP" "fcst_lead" exRunKey
    ([] ++ "A" :: []) "6" "ME" ≠ [] := by
  intro h0
  obtain ⟨-, h2⟩ := C261_curve_limits (preparedStat .sl1l2 exSlFrame) (fun _ _ => .none) ⟨1 / 2, .perc, false⟩ threeDraws threeDraws 3
    threeDraws_ok _ exDiff_input exRunKey exSl_key exSl_indy exSl_time exSl_read (by
      intro st hst zs z1 z2
      obtain ⟨v, hv, -⟩ := prepared_num exSl_lines z1 z2 (st := lower st) (by revert st; decide +kernel)
      rw [hv]; simp) [] [] ["TMP"] "A" "B" "ME" "A TMP ME" "B TMP ME" "DIFF" "DIFF(A TMP ME-B TMP ME)"
    exDiff_curve exDiff_boot (by simp) "6" (by decide) _ _ rfl rfl
    ⟨exDiff_once "A" (Or.inl rfl), exDiff_once "B" (Or.inr rfl)⟩
  have := ((h2 4 _ rfl rfl).2.1 h0).1
  simp at this

example := C261_sl1l2 (fun _ _ => .none) ⟨1 / 2, .perc, false⟩ (by decide) threeDraws threeDraws 3 threeDraws_ok _
    exDiff_input exRunKey exSl_key exSl_indy exSl_time exSl_read
    exLinePairs exSl_lines (by decide +kernel) [] [] ["TMP"] "A" "B" "ME" "A TMP ME" "B TMP ME" "DIFF" "DIFF(A TMP ME-B TMP ME)"
    exDiff_curve exDiff_boot (by simp) "6" (by decide) _ _ rfl rfl
    ⟨exDiff_once "A" (Or.inl rfl), exDiff_once "B" (Or.inr rfl)⟩
    ⟨["DIFF(A TMP ME-B TMP ME)", "6", "ME"], some "TMP", .num (-1), some (-3), some 0, 0⟩ (by simp) rfl exDiff_some _ rfl

/-- The curve of the observed means in the example. -/
theorem exDiff_obar : CurveRequest (exDiffParams.config exDiffParams.axis₁) [] [] ["TMP"] "A" "B" "OBAR"
    "A TMP OBAR" "B TMP OBAR" "DIFF" "DIFF(A TMP OBAR-B TMP OBAR)" where
  operation := Or.inl rfl
  requested := by decide
  named := by decide +kernel
  only := by decide +kernel
  first := by unfold SeriesText; decide +kernel
  second := by unfold SeriesText; decide +kernel
  differs := ⟨[], "model", ["A", "B"], [], rfl, .nil, .nil, by decide, by decide, Or.inr rfl⟩
  disjoint := by decide
  groups := by decide

/-- Rows with the same time and lead were verified against the same observations. -/
example := C261_same_observations (fun _ _ => .none) ⟨1 / 2, .perc, false⟩ rfl threeDraws threeDraws 3 (by decide) threeDraws_ok _
    exDiff_input exRunKey exSl_key exSl_indy exSl_time exSl_read exLinePairs exSl_lines (by decide +kernel) (by decide +kernel)
    [] [] ["TMP"] "A" "B" "OBAR" "A TMP OBAR" "B TMP OBAR" "DIFF(A TMP OBAR-B TMP OBAR)"
    exDiff_obar exDiff_boot (by simp) "6" (by decide) _ _ rfl rfl

end Metcalcpy.Props
