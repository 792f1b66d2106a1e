/-
C99  Every row of the table written by an aggregation summarises exactly the input rows of its point.
C100 No input row is lost or counted twice.
C101 Only the first forecast variable is aggregated.
-/
import Verif.Model.AggPoints
import Verif.Spec.AggPoints
import Verif.Lemmas.Frame
import Verif.Props.C01_Variables
import Verif.Props.C33_Derived
import Verif.Props.C45_ObjectBootstrap
import Mathlib.Tactic.Ring

namespace Metcalcpy.Props
open Metcalcpy Spec

/-! ### Requested texts -/

theorem splitAt1_ne_nil (sep : Char) (r : List Char) : splitAt1 sep r ≠ [] := by
  induction r with
  | nil => simp [splitAt1]
  | cons c r ih =>
    rw [splitAt1]
    split
    · simp
    · split <;> simp

theorem splitAt1_plain (sep : Char) (a r : List Char) (ha : sep ∉ a) :
    splitAt1 sep (a ++ sep :: r) = a :: splitAt1 sep r ∧ splitAt1 sep a = [a] := by
  induction a with
  | nil =>
    refine ⟨?_, rfl⟩
    rw [List.nil_append, splitAt1]
    cases e : splitAt1 sep r with
    | nil => exact absurd e (splitAt1_ne_nil sep r)
    | cons w ws => simp
  | cons c a ih =>
    have hc : (c == sep) = false := by
      simp only [List.mem_cons, not_or] at ha
      simpa using fun e => ha.1 e.symm
    have := ih (fun hm => ha (by simp [hm]))
    constructor
    · rw [List.cons_append, splitAt1, this.1]; simp [hc]
    · rw [splitAt1, this.2]; simp [hc]

theorem splitAt1_join (sep : Char) (l : List (List Char)) (hne : l ≠ []) (hl : ∀ w ∈ l, sep ∉ w) :
    splitAt1 sep ([sep].intercalate l) = l := by
  induction l with
  | nil => exact absurd rfl hne
  | cons a l ih =>
    cases l with
    | nil => simpa [List.intercalate] using (splitAt1_plain sep a [] (hl a (by simp))).2
    | cons b l =>
      rw [intercalate_cons_cons, List.append_assoc, List.singleton_append,
        (splitAt1_plain sep a _ (hl a (by simp))).1, ih (by simp) (fun w hw => hl w (by simp at hw ⊢; tauto))]

theorem splitAt1_colon (cs : List Char) : splitAt1 ':' cs = splitColon cs := by
  induction cs with
  | nil => rfl
  | cons c cs ih => rw [splitAt1, splitColon, ih]; rfl

theorem ofList_map_toList (vals : List String) : (vals.map String.toList).map String.ofList = vals := by
  rw [List.map_map]
  conv_rhs => rw [← List.map_id vals]
  exact List.map_congr_left fun x _ => by simp [String.ofList_toList]

theorem pointParts_eq {v : String} {vals : List String} (h : StandsFor v vals) : pointParts v = vals := by
  rcases h with ⟨hc, hg⟩ | ⟨hc, hne, hv, hs⟩
  · rw [← C01_ungroup v vals hg]
    unfold pointParts ungroup
    rw [if_pos (by simpa using hc), splitAt1_colon]
  · unfold pointParts
    rw [if_neg (by simpa using hc)]
    have e := splitAt1_join ';' (vals.map String.toList) (by simpa using hne) (by
      intro w hw
      obtain ⟨x, hx, rfl⟩ := List.mem_map.mp hw
      exact hs x hx)
    rw [← hv] at e
    split
    · rw [e, ofList_map_toList]
    · next hn =>
      have : splitAt1 ';' v.toList = [v.toList] := (splitAt1_plain ';' v.toList [] (by simpa using hn)).2
      rw [this] at e
      have e2 := ofList_map_toList vals
      rw [← e] at e2
      simpa [String.ofList_toList] using e2

/-! ### Numbers -/

theorem digitsValue_eq (cs : List Char) : ((digitsValue cs : ℕ) : ℚ) = digitsNumber cs := by
  have key : ∀ (cs : List Char), digitsValue cs = Nat.ofDigits 10 (cs.reverse.map (fun c => c.toNat - 48)) := by
    intro cs
    induction cs using List.reverseRecOn with
    | nil => simp [digitsValue]
    | append_singleton cs c ih =>
      unfold digitsValue at ih ⊢
      rw [List.foldl_append, ih]
      simp only [List.foldl_cons, List.foldl_nil, List.reverse_append, List.reverse_singleton, List.singleton_append,
        List.map_cons, Nat.ofDigits_cons, digitVal]
      have : '0'.toNat = 48 := by decide
      rw [this]; push_cast; ring
  unfold digitsNumber
  rw [key cs]

theorem removeFirstDot_of (a b : List Char) (ha : '.' ∉ a) : removeFirstDot (a ++ '.' :: b) = a ++ b := by
  induction a with
  | nil => simp [removeFirstDot]
  | cons c a ih =>
    simp only [List.mem_cons, not_or] at ha
    simp [removeFirstDot, Ne.symm ha.1, ih ha.2]

theorem dropWhile_dot (a b : List Char) (ha : '.' ∉ a) :
    ((a ++ '.' :: b).dropWhile (fun c => c != '.')).tail = b := by
  induction a with
  | nil => simp
  | cons c a ih =>
    simp only [List.mem_cons, not_or] at ha
    simp [Ne.symm ha.1, ih ha.2]

theorem isDecimal_value {s : String} {q : ℚ} (h : IsDecimal s q) : pyFloat s = q := by
  obtain ⟨a, b, hd, hne, h⟩ := h
  have hdot : '.' ∉ a := fun hm => by
    have := hd '.' (by simp [hm]); revert this; decide
  have hval : ∀ cs : List Char, cs = a ++ '.' :: b →
      ((digitsValue (removeFirstDot cs) : ℕ) : ℚ) / 10 ^ (cs.dropWhile (fun c => c != '.')).tail.length =
        digitsNumber (a ++ b) / 10 ^ b.length := by
    rintro cs rfl
    rw [removeFirstDot_of a b hdot, dropWhile_dot a b hdot, digitsValue_eq]
  rcases h with ⟨e, rfl⟩ | ⟨e, rfl⟩
  · unfold pyFloat
    split
    · next cs he =>
      exfalso
      rw [e] at he
      cases a with
      | nil => simp at he
      | cons c a =>
        have := hd c (by simp)
        simp only [List.cons_append, List.cons.injEq] at he
        rw [he.1] at this; revert this; decide
    · exact hval _ e
  · unfold pyFloat
    rw [e]
    simp only
    rw [hval _ rfl]

theorem isDecimal_iff (s : String) : (∃ q, IsDecimal s q) ↔ isStringStrictlyFloat (some s) = true := by
  rw [C53_float_form]
  constructor
  · rintro ⟨q, a, b, hd, hne, h⟩
    exact ⟨a, b, h.imp And.left And.left, hd, hne⟩
  · rintro ⟨a, b, h, hd, hne⟩
    rcases h with h | h
    · exact ⟨_, a, b, hd, hne, Or.inl ⟨h, rfl⟩⟩
    · exact ⟨_, a, b, hd, hne, Or.inr ⟨h, rfl⟩⟩

theorem partMatches_iff (v : Val) (p : String) : partMatches v p = true ↔ CellIs v p := by
  unfold partMatches CellIs
  simp only [← pyInt?_iff, ← pyInt?_none_iff]
  cases hp : pyInt? p with
  | some z =>
    have hnd : ∀ q, ¬ IsDecimal p q := fun q hq =>
      C53_exclusive p ⟨by simp [isStringInteger, hp], (isDecimal_iff p).mp ⟨q, hq⟩⟩
    cases v with
    | num q t => simp [hnd]
    | str s => simp [hnd]
    | null => simp [hnd]
  | none =>
    by_cases hf : isStringStrictlyFloat (some p) = true
    · obtain ⟨q, hq⟩ := (isDecimal_iff p).mpr hf
      have hu : ∀ q', IsDecimal p q' ↔ q' = q := fun q' =>
        ⟨fun h => (isDecimal_value h).symm.trans (isDecimal_value hq), fun h => h ▸ hq⟩
      rw [if_pos hf, isDecimal_value hq]
      cases v with
      | num x t => simp [hu]
      | str s => simp [hu]
      | null => simp [hu]
    · have hnd : ∀ q, ¬ IsDecimal p q := fun q hq => hf ((isDecimal_iff p).mp ⟨q, hq⟩)
      rw [if_neg hf]
      simp [hnd]

theorem fieldMatches_iff {v : Val} {request : String} (h : ∃ vals, StandsFor request vals) :
    fieldMatches v request = true ↔ CellAmong v request := by
  obtain ⟨vals, hv⟩ := h
  unfold fieldMatches CellAmong
  rw [pointParts_eq hv, List.any_eq_true]
  constructor
  · rintro ⟨p, hp, hm⟩
    exact ⟨vals, hv, p, hp, (partMatches_iff v p).mp hm⟩
  · rintro ⟨vals', hv', p, hp, hm⟩
    have : vals' = vals := (pointParts_eq hv').symm.trans (pointParts_eq hv)
    exact ⟨p, this ▸ hp, (partMatches_iff v p).mpr hm⟩

/-! ### The rows of a point -/

theorem pointFilters_iff {f : Frame} (hf : FrameWF f) {request : List (String × String)} {fcst : Option String}
    (hr : ∀ q ∈ request, ∃ vals, StandsFor q.2 vals) {r : List Val} (hm : r ∈ f.rows) :
    (pointFilters f request fcst).all (fun p => p r) = true ↔ RowOf f request fcst r := by
  unfold pointFilters RowOf
  rw [List.all_append, Bool.and_eq_true]
  refine and_congr ?_ ?_
  · rw [List.all_eq_true]
    constructor
    · intro h q hq hc
      obtain ⟨i, hi⟩ := Frame.idx?_of_mem hc
      have := h (fun r => fieldMatches (cellAt r i) q.2) (List.mem_filterMap.mpr ⟨q, hq, by simp [hi]⟩)
      exact ⟨cellAt r i, hasCell_cellAt hi (hf r hm), (fieldMatches_iff (hr q hq)).mp this⟩
    · intro h p hp
      obtain ⟨q, hq, e⟩ := List.mem_filterMap.mp hp
      obtain ⟨i, hi, rfl⟩ := Option.map_eq_some_iff.mp e
      have hc : q.1 ∈ f.cols := by
        by_contra hc
        rw [Frame.idx?_eq_none.mpr hc] at hi; simp at hi
      obtain ⟨v, hv, ha⟩ := h q hq hc
      have : cellAt r i = v := hasCell_unique hi hv
      change fieldMatches (cellAt r i) q.2 = true
      rw [this]
      exact (fieldMatches_iff (hr q hq)).mpr ha
  · cases fcst with
    | none => simp
    | some x =>
      cases hi : f.idx? "fcst_var" with
      | none => simp [Frame.idx?_eq_none.mp hi]
      | some i =>
        have hc : "fcst_var" ∈ f.cols := by
          by_contra hc
          rw [Frame.idx?_eq_none.mpr hc] at hi; simp at hi
        simp only [List.all_cons, List.all_nil, Bool.and_true, Option.some.injEq, hc, forall_const]
        constructor
        · rintro h y rfl
          have e : cellAt r i = .str x := by
            unfold isinTexts at h
            split at h
            · next s he => simp at h; rw [he, h]
            · simp at h
          rw [← e]; exact hasCell_cellAt hi (hf r hm)
        · intro h
          have := hasCell_unique hi (h x rfl)
          rw [this]; simp [isinTexts]

/-! ### The loop over the points -/

/-- What is computed for a plain point. -/
def PlainResult (statOf : String → List (List Val) → Except PyErr PyNum) (f : Frame) (c : AggConfig)
    (p : List String) (r : PointResult) : Prop :=
  ∃ rows, pointRows f ((c.fields.map Prod.fst).zip p) c.fcstVars.head? = .ok rows ∧
    ((rows = [] ∧ r = ⟨.none, none⟩) ∨
     (rows ≠ [] ∧ ∃ old, statOf (pointStat c.stats p old) rows = .ok r.value ∧ r.rows = some rows))

/-- The output row of a plain point. -/
def PlainOut (statOf : String → List (List Val) → Except PyErr PyNum) (f : Frame) (c : AggConfig)
    (p : List String) (o : AggOut) : Prop :=
  ∃ r, PlainResult statOf f c p r ∧ o = ⟨p, c.fcstVars.head?, r.value, (r.rows.getD []).length⟩

theorem aggStep_plain {statOf : String → List (List Val) → Except PyErr PyNum}
    {etb : List PyNum → List PyNum → PyNum} {f : Frame} {c : AggConfig} {curves : List (String × DerivedCurve)}
    {st st' : AggState} {p : List String} (hp : isDerivedPoint (some p) = false)
    (h : aggStep statOf etb f c curves st p = .ok st') :
    ∃ r, PlainResult statOf f c p r ∧ st'.results = putPoint st.results p r ∧
      st'.out = st.out ++ [⟨p, c.fcstVars.head?, r.value, (r.rows.getD []).length⟩] := by
  unfold aggStep at h
  simp only [hp, Bool.false_eq_true, if_false] at h
  cases hr : pointRows f ((c.fields.map Prod.fst).zip p) c.fcstVars.head? with
  | error e => rw [hr] at h; simp [bind, Except.bind] at h
  | ok rows =>
    rw [hr] at h
    by_cases he : rows = []
    · subst he
      simp [bind, Except.bind] at h
      refine ⟨⟨.none, none⟩, ⟨[], hr, Or.inl ⟨rfl, rfl⟩⟩, ?_, ?_⟩ <;> rw [← h] <;> rfl
    · have hb : rows.isEmpty = false := by simpa using he
      cases hv : statOf (pointStat c.stats p st.stat) rows with
      | error e => simp [bind, Except.bind, hb, hv] at h
      | ok v =>
        simp [bind, Except.bind, hb, hv] at h
        refine ⟨⟨v, some rows⟩, ⟨rows, hr, Or.inr ⟨he, st.stat, hv, rfl⟩⟩, ?_, ?_⟩ <;> rw [← h] <;> rfl

theorem aggStep_derived {statOf : String → List (List Val) → Except PyErr PyNum}
    {etb : List PyNum → List PyNum → PyNum} {f : Frame} {c : AggConfig} {curves : List (String × DerivedCurve)}
    {st st' : AggState} {p : List String} (hp : isDerivedPoint (some p) = true)
    (h : aggStep statOf etb f c curves st p = .ok st') :
    st'.results = st.results ∧ ∃ v,
      derivedPoint statOf etb f.cols c.groups curves (pointStat c.stats p st.stat) st.results p = .ok v ∧
      st'.out = st.out ++ [⟨p, c.fcstVars.head?, v, 0⟩] := by
  unfold aggStep at h
  simp only [hp, if_true] at h
  cases hv : derivedPoint statOf etb f.cols c.groups curves (pointStat c.stats p st.stat) st.results p with
  | error e => rw [hv] at h; simp [bind, Except.bind] at h
  | ok v =>
    rw [hv] at h
    simp [bind, Except.bind] at h
    rw [← h]
    exact ⟨rfl, v, rfl, rfl⟩

theorem foldlM_except_cons {ε σ α : Type*} (g : σ → α → Except ε σ) (s : σ) (a : α) (l : List α) {s' : σ}
    (h : (a :: l).foldlM g s = .ok s') : ∃ s₁, g s a = .ok s₁ ∧ l.foldlM g s₁ = .ok s' := by
  rw [List.foldlM_cons] at h
  cases hg : g s a with
  | error e => rw [hg] at h; simp [bind, Except.bind] at h
  | ok s₁ => rw [hg] at h; exact ⟨s₁, rfl, h⟩

theorem foldlM_except_append {ε σ α : Type*} (g : σ → α → Except ε σ) (s : σ) (l₁ l₂ : List α) {s' : σ}
    (h : (l₁ ++ l₂).foldlM g s = .ok s') : ∃ s₁, l₁.foldlM g s = .ok s₁ ∧ l₂.foldlM g s₁ = .ok s' := by
  rw [List.foldlM_append] at h
  cases hg : l₁.foldlM g s with
  | error e => rw [hg] at h; simp [bind, Except.bind] at h
  | ok s₁ => rw [hg] at h; exact ⟨s₁, rfl, h⟩

theorem loop_plain {statOf : String → List (List Val) → Except PyErr PyNum}
    {etb : List PyNum → List PyNum → PyNum} {f : Frame} {c : AggConfig} {curves : List (String × DerivedCurve)}
    (pts : List (List String)) (hp : ∀ p ∈ pts, isDerivedPoint (some p) = false) {st st' : AggState}
    (h : pts.foldlM (aggStep statOf etb f c curves) st = .ok st') :
    ∃ outs, st'.out = st.out ++ outs ∧ List.Forall₂ (PlainOut statOf f c) pts outs := by
  induction pts generalizing st with
  | nil =>
    simp [pure, Except.pure] at h
    exact ⟨[], by simp [h], .nil⟩
  | cons p pts ih =>
    obtain ⟨s₁, h₁, h₂⟩ := foldlM_except_cons _ _ _ _ h
    obtain ⟨r, hr, -, ho⟩ := aggStep_plain (hp p (by simp)) h₁
    obtain ⟨outs, e, hf⟩ := ih (fun q hq => hp q (by simp [hq])) h₂
    exact ⟨_ :: outs, by rw [e, ho, List.append_assoc]; rfl, .cons ⟨r, hr, rfl⟩ hf⟩

/-- Every output row of a derived point counts 0 rows; every output row has the point it was made for. -/
theorem loop_points {statOf : String → List (List Val) → Except PyErr PyNum}
    {etb : List PyNum → List PyNum → PyNum} {f : Frame} {c : AggConfig} {curves : List (String × DerivedCurve)}
    (pts : List (List String)) {st st' : AggState}
    (h : pts.foldlM (aggStep statOf etb f c curves) st = .ok st') :
    ∃ outs, st'.out = st.out ++ outs ∧
      List.Forall₂ (fun p (o : AggOut) => o.point = p ∧ (isDerivedPoint (some p) = true → o.nstats = 0)) pts outs := by
  induction pts generalizing st with
  | nil =>
    simp [pure, Except.pure] at h
    exact ⟨[], by simp [h], .nil⟩
  | cons p pts ih =>
    obtain ⟨s₁, h₁, h₂⟩ := foldlM_except_cons _ _ _ _ h
    obtain ⟨outs, e, hf⟩ := ih h₂
    cases hd : isDerivedPoint (some p) with
    | false =>
      obtain ⟨r, hr, -, ho⟩ := aggStep_plain hd h₁
      exact ⟨_ :: outs, by rw [e, ho, List.append_assoc]; rfl, .cons ⟨rfl, by simp [hd]⟩ hf⟩
    | true =>
      obtain ⟨-, v, -, ho⟩ := aggStep_derived hd h₁
      exact ⟨_ :: outs, by rw [e, ho, List.append_assoc]; rfl, .cons ⟨rfl, fun _ => rfl⟩ hf⟩

/-! ### C99 -/

/-- The fields of the points: the series variables, the independent variable and the statistic are different names. -/
def FieldsDistinct (c : AggConfig) : Prop :=
  c.indyVar ∉ c.series.map Prod.fst ∧ "stat_name" ∉ c.series.map Prod.fst ∧ c.indyVar ≠ "stat_name"

/-- The values of every field, in the order of the columns of the output. -/
def requestedValues (c : AggConfig) : List (String × List String) :=
  c.series ++ (if c.indyVals = [] then [] else [(c.indyVar, c.indyVals)]) ++ [("stat_name", c.stats)]

theorem dictSet_new {β : Type*} (d : List (String × β)) (k : String) (v : β) (h : k ∉ d.map Prod.fst) :
    dictSet d k v = d ++ [(k, v)] := by
  unfold dictSet
  rw [if_neg]
  intro ha
  obtain ⟨x, hx, hk⟩ := List.any_eq_true.mp ha
  exact h (List.mem_map.mpr ⟨x, hx, by simpa using hk⟩)

theorem fields_eq {c : AggConfig} (h : FieldsDistinct c) : c.fields = requestedValues c := by
  obtain ⟨h1, h2, h3⟩ := h
  unfold AggConfig.fields requestedValues
  by_cases he : c.indyVals = []
  · simp only [he, List.isEmpty_nil, if_true, List.append_nil]
    rw [dictSet_new _ _ _ h2]
  · have : c.indyVals.isEmpty = false := by simpa using he
    simp only [this, he, Bool.false_eq_true, if_false]
    rw [dictSet_new _ _ _ h1, dictSet_new]
    simp only [List.map_append, List.map_cons, List.map_nil, List.mem_append, List.mem_singleton, not_or]
    exact ⟨h2, fun e => h3 e.symm⟩

theorem derived_of_mem {p : List String} (h : isDerivedPoint (some p) = true) :
    ∃ x ∈ p, isDerivedPoint (some [x]) = true := by
  unfold isDerivedPoint at h
  obtain ⟨op, hop, h⟩ := List.any_eq_true.mp h
  obtain ⟨x, hx, h⟩ := List.any_eq_true.mp h
  exact ⟨x, hx, List.any_eq_true.mpr ⟨op, hop, by simpa using h⟩⟩

theorem forall₂_mem_any {α : Type*} {p : List α} {ls : List (List α)} (h : List.Forall₂ (fun x l => x ∈ l) p ls)
    {x : α} (hx : x ∈ p) : ∃ l ∈ ls, x ∈ l := by
  induction h with
  | nil => simp at hx
  | cons ha _ ih =>
    rcases List.mem_cons.mp hx with rfl | hx
    · exact ⟨_, by simp, ha⟩
    · obtain ⟨l, hl, h⟩ := ih hx
      exact ⟨l, by simp [hl], h⟩

theorem plain_not_derived {c : AggConfig}
    (hd : ∀ q ∈ c.fields, ∀ v ∈ q.2, isDerivedPoint (some [v]) = false) :
    ∀ p ∈ c.plainPoints, isDerivedPoint (some p) = false := by
  intro p hp
  rw [Bool.eq_false_iff]
  intro h
  obtain ⟨x, hx, hxd⟩ := derived_of_mem h
  obtain ⟨l, hl, hxl⟩ := forall₂_mem_any (mem_product.mp hp) hx
  obtain ⟨q, hq, rfl⟩ := List.mem_map.mp hl
  rw [hd q hq x hxl] at hxd
  exact Bool.noConfusion hxd

theorem aggAxis_split {statOf : String → List (List Val) → Except PyErr PyNum}
    {etb : List PyNum → List PyNum → PyNum} {f : Frame} {c : AggConfig} {out : List AggOut}
    (hne : f.rows ≠ [] ∧ f.cols ≠ []) (hd : ∀ q ∈ c.fields, ∀ v ∈ q.2, isDerivedPoint (some [v]) = false)
    (h : aggAxis statOf etb f c = .ok out) :
    ∃ plain derived, out = plain ++ derived ∧ List.Forall₂ (PlainOut statOf f c) c.plainPoints plain ∧
      ∃ pts : List (List String), List.Forall₂ (fun p (o : AggOut) => o.point = p ∧
        (isDerivedPoint (some p) = true → o.nstats = 0)) pts derived := by
  unfold aggAxis at h
  have he : f.isEmpty = false := by
    obtain ⟨h1, h2⟩ := hne
    unfold Frame.isEmpty
    cases hc : f.cols <;> cases hr : f.rows <;> simp_all
  rw [he] at h
  simp only [Bool.false_eq_true, if_false] at h
  cases hm : c.derived.mapM (derivedEntry c) with
  | error e => rw [hm] at h; simp [bind, Except.bind] at h
  | ok entries =>
    rw [hm] at h
    simp only [bind, Except.bind] at h
    split at h
    · simp at h
    · next st hst =>
      obtain ⟨s₁, h₁, h₂⟩ := foldlM_except_append _ _ _ _ hst
      obtain ⟨plain, e₁, hp⟩ := loop_plain _ (plain_not_derived hd) h₁
      obtain ⟨der, e₂, hq⟩ := loop_points _ h₂
      refine ⟨plain, der, ?_, hp, _, hq⟩
      simp only [Except.ok.injEq] at h
      rw [← h, e₂, e₁]; simp

theorem pointStat_last (stats : List String) (p : List String) (s old : String) (hs : s ∈ stats) :
    pointStat stats (p ++ [s]) old = lower s := by
  unfold pointStat
  rw [List.reverse_append]
  simp [hs]

theorem length_product {α : Type*} (ls : List (List α)) : (product ls).length = (ls.map List.length).prod := by
  induction ls with
  | nil => simp [product]
  | cons l ls ih => simp [product, List.length_flatMap, ih]

theorem plainOut_points {statOf : String → List (List Val) → Except PyErr PyNum} {f : Frame} {c : AggConfig}
    {pts : List (List String)} {outs : List AggOut} (h : List.Forall₂ (PlainOut statOf f c) pts outs) :
    outs.map AggOut.point = pts ∧ ∀ o ∈ outs, PlainOut statOf f c o.point o := by
  induction h with
  | nil => exact ⟨rfl, by simp⟩
  | cons ha _ ih =>
    obtain ⟨r, hr, rfl⟩ := ha
    refine ⟨by simp [ih.1], fun o ho => ?_⟩
    rcases List.mem_cons.mp ho with rfl | ho
    · exact ⟨r, hr, rfl⟩
    · exact ih.2 o ho

open Classical in
/-- C99: the table begins with one row for every combination of series values, independent value and statistic.  The
row of a combination carries the first forecast variable, the number of the input rows that belong to it, and the
statistic of exactly these rows (nothing when there are none).  The remaining rows (those of the derived curves) count
no input rows. -/
theorem C99_rows (statOf : String → List (List Val) → Except PyErr PyNum) (etb : List PyNum → List PyNum → PyNum)
    (f : Frame) (c : AggConfig) (out : List AggOut) (hf : FrameWF f) (hne : f.rows ≠ [] ∧ f.cols ≠ [])
    (hdist : FieldsDistinct c)
    (hv : ∀ q ∈ requestedValues c, ∀ v ∈ q.2, (∃ vals, StandsFor v vals) ∧ isDerivedPoint (some [v]) = false)
    (h : aggAxis statOf etb f c = .ok out) :
    ∃ plain derived, out = plain ++ derived ∧
      (∀ p, p ∈ plain.map AggOut.point ↔ List.Forall₂ (fun x q => x ∈ q.2) p (requestedValues c)) ∧
      plain.length = ((requestedValues c).map (fun q => q.2.length)).prod ∧
      (∀ o ∈ plain, ∀ rows, rows = f.rows.filter (fun r =>
          decide (RowOf f (((requestedValues c).map Prod.fst).zip o.point) c.fcstVars.head? r)) →
        o.fcstVar = c.fcstVars.head? ∧ o.nstats = rows.length ∧
        (rows = [] → o.value = .none) ∧
        (rows ≠ [] → ∃ s, o.point.getLast? = some s ∧ statOf (lower s) rows = .ok o.value)) ∧
      (∀ o ∈ derived, isDerivedPoint (some o.point) = true → o.nstats = 0) := by
  have hfe := fields_eq hdist
  obtain ⟨plain, derived, e, hp, pts, hq⟩ :=
    aggAxis_split hne (fun q hq v hm => (hv q (hfe ▸ hq) v hm).2) h
  obtain ⟨hpts, hall⟩ := plainOut_points hp
  refine ⟨plain, derived, e, ?_, ?_, ?_, ?_⟩
  · intro p
    rw [hpts, AggConfig.plainPoints, mem_product, hfe, List.forall₂_map_right_iff]
  · rw [← List.length_map (f := AggOut.point) (as := plain), hpts, AggConfig.plainPoints, length_product, hfe,
      List.map_map]
    rfl
  · intro o ho rows hrows
    have hmem : o.point ∈ c.plainPoints := hpts ▸ List.mem_map_of_mem ho
    have hout := hall o ho
    obtain ⟨r, ⟨rows', hr', hcase⟩, hoe⟩ := hout
    have hfo : List.Forall₂ (fun x l => x ∈ l) o.point ((requestedValues c).map Prod.snd) := by
      rw [AggConfig.plainPoints, mem_product, hfe] at hmem; exact hmem
    have hreq : ∀ q ∈ ((requestedValues c).map Prod.fst).zip o.point, ∃ vals, StandsFor q.2 vals := by
      intro q hq
      obtain ⟨l, hl, hx⟩ := forall₂_mem_any hfo (List.of_mem_zip hq).2
      obtain ⟨w, hw, rfl⟩ := List.mem_map.mp hl
      exact (hv w hw _ hx).1
    have hrr : rows' = rows := by
      rw [hfe] at hr'
      unfold pointRows at hr'
      split at hr'
      · simp at hr'
      · simp only [Except.ok.injEq] at hr'
        rw [← hr', hrows]
        apply List.filter_congr
        intro r hr
        rw [Bool.eq_iff_iff, decide_eq_true_iff]
        exact pointFilters_iff hf hreq hr
    subst hrr
    have hlast : ∃ p s, o.point = p ++ [s] ∧ s ∈ c.stats := by
      unfold requestedValues at hfo
      rw [List.map_append] at hfo
      obtain ⟨a, b, h1, h2, h3⟩ : ∃ a b, List.Forall₂ (fun x l => x ∈ l) a
          ((c.series ++ (if c.indyVals = [] then [] else [(c.indyVar, c.indyVals)])).map Prod.snd) ∧
          List.Forall₂ (fun x l => x ∈ l) b [c.stats] ∧ o.point = a ++ b := by
        have := List.forall₂_iff_zip.mp hfo
        refine ⟨o.point.take ((c.series ++ (if c.indyVals = [] then [] else [(c.indyVar, c.indyVals)])).map
          Prod.snd).length, o.point.drop ((c.series ++ (if c.indyVals = [] then [] else
          [(c.indyVar, c.indyVals)])).map Prod.snd).length, ?_, ?_, (List.take_append_drop _ _).symm⟩
        · have := List.forall₂_take_append _ _ _ hfo; exact this
        · have := List.forall₂_drop_append _ _ _ hfo; exact this
      cases h2 with
      | @cons s _ _ _ hs hnil =>
        cases hnil
        exact ⟨a, s, h3, hs⟩
    rcases hcase with ⟨he, hr⟩ | ⟨he, old, hs, hrs⟩
    · subst he
      rw [hoe, hr]
      exact ⟨rfl, rfl, fun _ => rfl, fun hn => absurd rfl hn⟩
    · obtain ⟨p, s, hps, hss⟩ := hlast
      rw [hps, pointStat_last _ _ _ _ hss] at hs
      rw [hoe]
      refine ⟨rfl, by simp [hrs], fun hn => absurd hn he, fun _ => ⟨s, ?_, hs⟩⟩
      change o.point.getLast? = some s
      rw [hps]; simp
  · intro o ho hdo
    clear e
    induction hq with
    | nil => simp at ho
    | cons ha _ ih =>
      rcases List.mem_cons.mp ho with rfl | ho
      · exact ha.2 (ha.1 ▸ hdo)
      · exact ih ho

/-! ### C100 -/

theorem sum_count_swap {α β : Type*} (pts : List α) (rows : List β) (Q : α → β → Bool) :
    (pts.map (fun p => (rows.filter (Q p)).length)).sum = (rows.map (fun r => pts.countP (fun p => Q p r))).sum := by
  induction rows with
  | nil => simp
  | cons r rows ih =>
    rw [List.map_cons, List.sum_cons, ← ih]
    clear ih
    induction pts with
    | nil => simp
    | cons p pts ih =>
      simp only [List.map_cons, List.sum_cons, List.countP_cons]
      rw [ih, List.filter_cons]
      by_cases h : Q p r
      · simp only [h, if_true, List.length_cons]; omega
      · simp only [h]; simp; omega

theorem countP_le_one {α : Type*} (P : α → Bool) (l : List α) (h : l.Pairwise (fun a b => ¬ (P a = true ∧ P b = true))) :
    l.countP P = if l.any P then 1 else 0 := by
  induction l with
  | nil => simp
  | cons a l ih =>
    obtain ⟨h1, h2⟩ := List.pairwise_cons.mp h
    rw [List.countP_cons, ih h2, List.any_cons]
    by_cases ha : P a = true
    · have : l.any P = false := by
        rw [Bool.eq_false_iff]; intro hx
        obtain ⟨b, hb, hpb⟩ := List.any_eq_true.mp hx
        exact h1 b hb ⟨ha, hpb⟩
      simp [this, ha]
    · simp [ha]

theorem countP_product (P : String → String → Bool) (qs : List (String × List String))
    (h : ∀ q ∈ qs, q.2.Pairwise (fun a b => ¬ (P q.1 a = true ∧ P q.1 b = true))) :
    (product (qs.map Prod.snd)).countP (fun p => ((qs.map Prod.fst).zip p).all (fun q => P q.1 q.2)) =
      if qs.all (fun q => q.2.any (P q.1)) then 1 else 0 := by
  induction qs with
  | nil => simp [product]
  | cons q qs ih =>
    have ih' := ih (fun x hx => h x (by simp [hx]))
    have h1 := countP_le_one (P q.1) q.2 (h q (by simp))
    simp only [List.map_cons, product, List.countP_flatMap, List.countP_map]
    have key : ∀ a, (List.countP ((fun p => (List.zip (q.1 :: List.map Prod.fst qs) p).all (fun q => P q.1 q.2)) ∘
        (fun p => a :: p)) (product (qs.map Prod.snd))) =
        if P q.1 a then (if qs.all (fun q => q.2.any (P q.1)) then 1 else 0) else 0 := by
      intro a
      rw [← ih']
      by_cases ha : P q.1 a = true
      · simp only [ha, if_true]
        apply List.countP_congr
        intro p _
        simp [ha]
      · simp only [ha]
        rw [if_neg (by simp), List.countP_eq_zero]
        intro p _
        simp [ha]
    have key' : (List.map (List.countP (fun p => (List.zip (q.1 :: List.map Prod.fst qs) p).all (fun q => P q.1 q.2)) ∘
        fun a => List.map (fun p => a :: p) (product (qs.map Prod.snd))) q.2).sum =
        (q.2.map (fun a => if P q.1 a then (if qs.all (fun q => q.2.any (P q.1)) then 1 else 0) else 0)).sum := by
      congr 1
      apply List.map_congr_left
      intro a _
      rw [← key a, Function.comp, List.countP_map]
    first
      | rw [key']
      | (simp only [Function.comp_def, List.countP_map] at key' ⊢; rw [key'])
    rw [List.all_cons]
    by_cases hall : qs.all (fun q => q.2.any (P q.1)) = true
    · simp only [hall, if_true, Bool.and_true]
      rw [← h1, List.countP_eq_length_filter]
      clear h1 key key' ih ih' h
      induction q.2 with
      | nil => simp
      | cons a l ih => by_cases ha : P q.1 a = true <;> simp [ha, ih] <;> omega
    · simp [hall]

theorem countP_eq_sum {α : Type*} (P : α → Bool) (l : List α) :
    l.countP P = (l.map (fun a => if P a then 1 else 0)).sum := by
  induction l with
  | nil => simp
  | cons a l ih => rw [List.countP_cons, ih, List.map_cons, List.sum_cons, Nat.add_comm]

open Classical in
/-- C100: when every field of the plot is a column of the input and no cell has two of the values requested for a field,
the counts of the plain rows add up to the number of input rows (of the first forecast variable) that have a
requested value in every field: none is lost, none is counted twice. -/
theorem C100_conservation (statOf : String → List (List Val) → Except PyErr PyNum)
    (etb : List PyNum → List PyNum → PyNum) (f : Frame) (c : AggConfig) (out : List AggOut) (hf : FrameWF f)
    (hne : f.rows ≠ []) (hdist : FieldsDistinct c)
    (hv : ∀ q ∈ requestedValues c, ∀ v ∈ q.2, (∃ vals, StandsFor v vals) ∧ isDerivedPoint (some [v]) = false)
    (hcols : ∀ q ∈ requestedValues c, q.1 ∈ f.cols)
    (hdisj : ∀ q ∈ requestedValues c, q.2.Pairwise (fun a b => ∀ x, ¬ (CellAmong x a ∧ CellAmong x b)))
    (h : aggAxis statOf etb f c = .ok out) :
    ((out.take ((requestedValues c).map (fun q => q.2.length)).prod).map AggOut.nstats).sum =
      (f.rows.filter (fun r => decide (
        (∀ q ∈ requestedValues c, ∃ v ∈ q.2, ∃ x, HasCell f r q.1 x ∧ CellAmong x v) ∧
        (∀ x, c.fcstVars.head? = some x → "fcst_var" ∈ f.cols → HasCell f r "fcst_var" (.str x))))).length := by
  have hcne : f.cols ≠ [] := by
    have := hcols ("stat_name", c.stats) (by simp [requestedValues])
    intro e; rw [e] at this; simp at this
  obtain ⟨plain, derived, e, hp, hlen, hrow, -⟩ := C99_rows statOf etb f c out hf ⟨hne, hcne⟩ hdist hv h
  obtain ⟨plain', derived', e', hp', -⟩ := aggAxis_split (c := c) ⟨hne, hcne⟩
    (fun q hq v hm => (hv q (fields_eq hdist ▸ hq) v hm).2) h
  have hlen' : plain'.length = plain.length := by
    rw [hlen, ← hp'.length_eq, AggConfig.plainPoints, length_product, fields_eq hdist, List.map_map]
    rfl
  obtain rfl : plain' = plain := (List.append_inj (e'.symm.trans e) hlen').1
  have hpts : plain'.map AggOut.point = product ((requestedValues c).map Prod.snd) := by
    rw [(plainOut_points hp').1, AggConfig.plainPoints, fields_eq hdist]
  rw [← hlen, e, List.take_left]
  have hsum : plain'.map AggOut.nstats = (product ((requestedValues c).map Prod.snd)).map (fun p =>
      (f.rows.filter (fun r => decide (RowOf f (((requestedValues c).map Prod.fst).zip p) c.fcstVars.head? r))).length) := by
    rw [← hpts, List.map_map]
    apply List.map_congr_left
    intro o ho
    exact (hrow o ho _ rfl).2.1
  rw [hsum, sum_count_swap]
  rw [← List.countP_eq_length_filter, countP_eq_sum]
  congr 1
  apply List.map_congr_left
  intro r hr
  by_cases hx : ∀ x, c.fcstVars.head? = some x → "fcst_var" ∈ f.cols → HasCell f r "fcst_var" (.str x)
  · have hc := countP_product (fun n v => decide (∃ x, HasCell f r n x ∧ CellAmong x v)) (requestedValues c) (by
      intro q hq
      refine (hdisj q hq).imp ?_
      rintro a b hab ⟨h1, h2⟩
      obtain ⟨x, hx1, hx2⟩ := of_decide_eq_true h1
      obtain ⟨y, hy1, hy2⟩ := of_decide_eq_true h2
      obtain ⟨i, hi⟩ := Frame.idx?_of_mem (hcols q hq)
      have : x = y := (hasCell_unique hi hx1).symm.trans (hasCell_unique hi hy1)
      exact hab x ⟨hx2, this ▸ hy2⟩)
    have hl : (product ((requestedValues c).map Prod.snd)).countP (fun p =>
        decide (RowOf f (((requestedValues c).map Prod.fst).zip p) c.fcstVars.head? r)) =
        (product ((requestedValues c).map Prod.snd)).countP (fun p =>
          (((requestedValues c).map Prod.fst).zip p).all (fun q => decide (∃ x, HasCell f r q.1 x ∧ CellAmong x q.2))) := by
      apply List.countP_congr
      intro p _
      rw [decide_eq_true_iff, List.all_eq_true]
      constructor
      · rintro ⟨h1, -⟩ q hq
        have hqc : q.1 ∈ f.cols := by
          obtain ⟨w, hw, e⟩ := List.mem_map.mp (List.of_mem_zip hq).1
          exact e ▸ hcols w hw
        exact decide_eq_true (h1 q hq hqc)
      · intro h1
        exact ⟨fun q hq _ => of_decide_eq_true (h1 q hq), hx⟩
    rw [hl, hc]
    have e1 : ((requestedValues c).all fun q => q.2.any fun v => decide (∃ x, HasCell f r q.1 x ∧ CellAmong x v)) =
        decide ((∀ q ∈ requestedValues c, ∃ v ∈ q.2, ∃ x, HasCell f r q.1 x ∧ CellAmong x v) ∧
        (∀ x, c.fcstVars.head? = some x → "fcst_var" ∈ f.cols → HasCell f r "fcst_var" (.str x))) := by
      rw [Bool.eq_iff_iff, decide_eq_true_iff, List.all_eq_true]
      constructor
      · intro h1
        refine ⟨fun q hq => ?_, hx⟩
        obtain ⟨v, hv, hd⟩ := List.any_eq_true.mp (h1 q hq)
        exact ⟨v, hv, of_decide_eq_true hd⟩
      · rintro ⟨h1, -⟩ q hq
        obtain ⟨v, hv, hd⟩ := h1 q hq
        exact List.any_eq_true.mpr ⟨v, hv, decide_eq_true hd⟩
    rw [e1]
  · rw [if_neg (by simp only [decide_eq_true_eq]; exact fun hh => hx hh.2), List.countP_eq_zero]
    intro p _ hp
    exact hx (of_decide_eq_true hp).2

/-! ### C101 -/

/-- C101: rows of any other forecast variable than the first one have no influence on the table, whatever variables
the plot asks for. -/
theorem C101_first_variable_only (statOf : String → List (List Val) → Except PyErr PyNum)
    (etb : List PyNum → List PyNum → PyNum) (f f' : Frame) (c : AggConfig) (x : String)
    (hx : c.fcstVars.head? = some x) (hcol : "fcst_var" ∈ f.cols)
    (hcols : f'.cols = f.cols)
    (hrows : ∀ P : List Val → Bool, (∀ r, P r = true ↔ HasCell f r "fcst_var" (.str x)) →
      f'.rows.filter P = f.rows.filter P)
    (hne : f.rows ≠ []) (hne' : f'.rows ≠ []) :
    aggAxis statOf etb f' c = aggAxis statOf etb f c := by
  classical
  obtain ⟨i, hi⟩ := Frame.idx?_of_mem hcol
  have hidx : ∀ n, f'.idx? n = f.idx? n := fun n => by unfold Frame.idx?; rw [hcols]
  have hfil : ∀ req, pointFilters f' req (some x) = pointFilters f req (some x) := by
    intro req; unfold pointFilters; simp only [hidx]
  have hmem : ∀ req, (fun r => isinTexts (cellAt r i) [x]) ∈ pointFilters f req (some x) := by
    intro req
    unfold pointFilters
    rw [hi]
    exact List.mem_append_right _ (by simp)
  have hpr : ∀ req, pointRows f' req (some x) = pointRows f req (some x) := by
    intro req
    unfold pointRows
    rw [hfil]
    split
    · rfl
    · congr 1
      have hsub : ∀ l : List (List Val), l.filter (fun r => (pointFilters f req (some x)).all (fun p => p r)) =
          (l.filter (fun r => decide (HasCell f r "fcst_var" (.str x)))).filter
            (fun r => (pointFilters f req (some x)).all (fun p => p r)) := by
        intro l
        rw [List.filter_filter]
        apply List.filter_congr
        intro r _
        rw [Bool.eq_iff_iff, Bool.and_eq_true, decide_eq_true_iff]
        refine ⟨fun h => ⟨h, ?_⟩, And.left⟩
        have := List.all_eq_true.mp h _ (hmem req)
        rw [hasCell_iff hi]
        unfold isinTexts at this
        split at this
        · next s he =>
          simp at this
          unfold cellAt at he
          cases hr : r[i]? with
          | none => rw [hr] at he; simp at he
          | some v => rw [hr] at he; simp at he; rw [he, this]
        · simp at this
      rw [hsub f'.rows, hsub f.rows, hrows _ (fun r => decide_eq_true_iff)]
  have hstep : ∀ curves, aggStep statOf etb f' c curves = aggStep statOf etb f c curves := by
    intro curves
    funext st p
    unfold aggStep
    simp only [hx, hpr, hcols]
  have hemp : f'.isEmpty = f.isEmpty := by
    unfold Frame.isEmpty
    rw [hcols]
    cases h1 : f.rows <;> cases h2 : f'.rows <;> simp_all
  unfold aggAxis
  rw [hemp]
  simp only [hstep]

/-- A small input: two models, two leads, two forecast variables. -/
def exampleFrame : Frame :=
  { cols := ["model", "fcst_lead", "fcst_var", "stat_name", "fcst_valid_beg"]
    rows := [[.str "A", .num 12 "12", .str "TMP", .str "ME", .str "t1"],
             [.str "A", .num 24 "24", .str "TMP", .str "ME", .str "t1"],
             [.str "B", .num 12 "12", .str "TMP", .str "ME", .str "t1"],
             [.str "B", .num 12 "12", .str "DPT", .str "ME", .str "t1"],
             [.str "A", .num 12 "12", .str "TMP", .str "ME", .str "t2"]] }

/-- The plot of ME against the lead for both models and for both of them together. -/
def exampleConfig : AggConfig :=
  { series := [("model", ["A", "B", "A:B"])], indyVar := "fcst_lead", indyVals := ["12", "24"], stats := ["ME"],
    derived := [], fcstVars := ["TMP", "DPT"], groups := [("Group_y1_1", "A:B")] }

/-- A statistic: the number of rows. -/
def countRows (_ : String) (rows : List (List Val)) : Except PyErr PyNum := .ok (.num rows.length)

/-- C101 (counterexample): the plot asks for TMP and DPT; the input has DPT data; the table has no row for DPT. -/
theorem C101_counterexample :
    "DPT" ∈ exampleConfig.fcstVars ∧
    (∃ r ∈ exampleFrame.rows, HasCell exampleFrame r "fcst_var" (.str "DPT")) ∧
    aggAxis countRows (fun _ _ => .none) exampleFrame exampleConfig = .ok
      [⟨["A", "12", "ME"], some "TMP", .num 2, 2⟩, ⟨["A", "24", "ME"], some "TMP", .num 1, 1⟩,
       ⟨["B", "12", "ME"], some "TMP", .num 1, 1⟩, ⟨["B", "24", "ME"], some "TMP", .none, 0⟩,
       ⟨["A:B", "12", "ME"], some "TMP", .num 3, 3⟩, ⟨["A:B", "24", "ME"], some "TMP", .num 1, 1⟩] := by
  refine ⟨by decide, ⟨[.str "B", .num 12 "12", .str "DPT", .str "ME", .str "t1"], by decide, 2, rfl, by decide, rfl⟩,
    by decide +kernel⟩

theorem standsFor_self {v : String} (h1 : ':' ∉ v.toList) (h2 : ';' ∉ v.toList) : StandsFor v [v] :=
  Or.inr ⟨h1, by simp, by simp [List.intercalate], by simpa using h2⟩

theorem exampleConfig_ok : FrameWF exampleFrame ∧ FieldsDistinct exampleConfig ∧
    ∀ q ∈ requestedValues exampleConfig, ∀ v ∈ q.2,
      (∃ vals, StandsFor v vals) ∧ isDerivedPoint (some [v]) = false := by
  refine ⟨by unfold FrameWF; decide, by unfold FieldsDistinct; decide, ?_⟩
  have hq : ∀ q ∈ requestedValues exampleConfig, ∀ v ∈ q.2, v ∈ ["A", "B", "A:B", "12", "24", "ME"] := by decide
  intro q hq' v hv
  have := hq q hq' v hv
  simp only [List.mem_cons, List.not_mem_nil, or_false] at this
  rcases this with rfl | rfl | rfl | rfl | rfl | rfl
  · exact ⟨⟨_, standsFor_self (by decide) (by decide)⟩, by decide +kernel⟩
  · exact ⟨⟨_, standsFor_self (by decide) (by decide)⟩, by decide +kernel⟩
  · refine ⟨⟨["A", "B"], Or.inl ⟨by decide, by simp, by decide, Or.inr ⟨by decide, ?_⟩⟩⟩, by decide +kernel⟩
    rintro d hd ⟨s, t, e⟩
    have hl := ((isDateTime_iff d).mp hd).1
    have := congrArg List.length e
    simp only [List.length_append, hl] at this
    have h3 : ("A:B".toList).length = 3 := by decide
    omega
  · exact ⟨⟨_, standsFor_self (by decide) (by decide)⟩, by decide +kernel⟩
  · exact ⟨⟨_, standsFor_self (by decide) (by decide)⟩, by decide +kernel⟩
  · exact ⟨⟨_, standsFor_self (by decide) (by decide)⟩, by decide +kernel⟩

/-- C99 (example): the hypotheses hold for the small input. -/
example := C99_rows countRows (fun _ _ => .none) exampleFrame exampleConfig _ exampleConfig_ok.1
  (by decide) exampleConfig_ok.2.1 exampleConfig_ok.2.2 C101_counterexample.2.2

/-- C101 (example): dropping the DPT row changes nothing. -/
example : aggAxis countRows (fun _ _ => .none)
    { exampleFrame with rows := exampleFrame.rows.eraseIdx 3 } exampleConfig =
    aggAxis countRows (fun _ _ => .none) exampleFrame exampleConfig := by
  apply C101_first_variable_only (x := "TMP") (hx := rfl)
  · decide
  · rfl
  · intro P hP
    have h3 : P [.str "B", .num 12 "12", .str "DPT", .str "ME", .str "t1"] = false := by
      rw [Bool.eq_false_iff]; intro h
      have := (hP _).mp h
      rw [hasCell_iff (i := 2) (by decide)] at this
      simp at this
    simp [exampleFrame, List.filter_cons, h3]
  · decide
  · decide

theorem cellAmong_plain {v : String} (h1 : ':' ∉ v.toList) (h2 : ';' ∉ v.toList) (x : Val) :
    CellAmong x v ↔ partMatches x v = true := by
  rw [← fieldMatches_iff ⟨_, standsFor_self h1 h2⟩]
  unfold fieldMatches
  rw [pointParts_eq (standsFor_self h1 h2)]
  simp

/-- The plot without the group. -/
def exampleConfig₂ : AggConfig := { exampleConfig with series := [("model", ["A", "B"])] }

/-- C100 (example): the hypotheses hold for the small input; the four TMP rows are counted once each. -/
example : (([⟨["A", "12", "ME"], some "TMP", .num 2, 2⟩, ⟨["A", "24", "ME"], some "TMP", .num 1, 1⟩,
    ⟨["B", "12", "ME"], some "TMP", .num 1, 1⟩, ⟨["B", "24", "ME"], some "TMP", .none, 0⟩] :
    List AggOut).map AggOut.nstats).sum = 4 := by decide

example := C100_conservation countRows (fun _ _ => .none) exampleFrame exampleConfig₂
  [⟨["A", "12", "ME"], some "TMP", .num 2, 2⟩, ⟨["A", "24", "ME"], some "TMP", .num 1, 1⟩,
    ⟨["B", "12", "ME"], some "TMP", .num 1, 1⟩, ⟨["B", "24", "ME"], some "TMP", .none, 0⟩]
  exampleConfig_ok.1 (by decide) (by unfold FieldsDistinct; decide)
  (fun q hq v hv => by
    have : ∃ q' ∈ requestedValues exampleConfig, v ∈ q'.2 := by
      have h : ∀ q ∈ requestedValues exampleConfig₂, ∀ v ∈ q.2, ∃ q' ∈ requestedValues exampleConfig, v ∈ q'.2 := by
        decide
      exact h q hq v hv
    obtain ⟨q', hq', hv'⟩ := this
    exact exampleConfig_ok.2.2 q' hq' v hv')
  (by decide)
  (fun q hq => by
    have h : q ∈ [("model", ["A", "B"]), ("fcst_lead", ["12", "24"]), ("stat_name", ["ME"])] := hq
    simp only [List.mem_cons, List.not_mem_nil, or_false] at h
    rcases h with rfl | rfl | rfl
    · simp only [List.pairwise_cons, List.mem_singleton, forall_eq]
      refine ⟨fun x ⟨ha, hb⟩ => ?_, by simp, by simp⟩
      rw [cellAmong_plain (by decide) (by decide)] at ha hb
      have e1 : pyInt? "A" = none := by decide
      have e2 : pyInt? "B" = none := by decide
      have e3 : isStringStrictlyFloat (some "A") = false := by decide
      have e4 : isStringStrictlyFloat (some "B") = false := by decide
      simp only [partMatches, e1, e2, e3, e4] at ha hb
      simp at ha hb
      rw [ha] at hb; simp at hb
    · simp only [List.pairwise_cons, List.mem_singleton, forall_eq]
      refine ⟨fun x ⟨ha, hb⟩ => ?_, by simp, by simp⟩
      rw [cellAmong_plain (by decide) (by decide)] at ha hb
      have e1 : pyInt? "12" = some 12 := by decide
      have e2 : pyInt? "24" = some 24 := by decide
      simp only [partMatches, e1, e2] at ha hb
      cases x with
      | num a t =>
        simp at ha hb
        rw [ha] at hb; norm_num at hb
      | str s => simp at ha
      | null => simp at ha
    · simp)
  (by decide +kernel)

/-! ### The run completes -/

/-- C99: without derived curves the run succeeds on every input that has the column stat_name, provided the statistics
themselves are defined on non-empty sets of rows. -/
theorem C99_completes (statOf : String → List (List Val) → Except PyErr PyNum)
    (etb : List PyNum → List PyNum → PyNum) (f : Frame) (c : AggConfig) (hdist : FieldsDistinct c)
    (hcol : "stat_name" ∈ f.cols) (hnd : c.derived = [])
    (hv : ∀ q ∈ requestedValues c, ∀ v ∈ q.2, isDerivedPoint (some [v]) = false)
    (hs : ∀ s ∈ c.stats, ∀ rows, rows ≠ [] → rows.Sublist f.rows → ∃ v, statOf (lower s) rows = .ok v) :
    ∃ out, aggAxis statOf etb f c = .ok out := by
  unfold aggAxis
  split
  · exact ⟨_, rfl⟩
  · rw [hnd]
    have hloop : ∀ pts : List (List String), (∀ p ∈ pts, p ∈ c.plainPoints) → ∀ st : AggState,
        ∃ st', pts.foldlM (aggStep statOf etb f c []) st = .ok st' := by
      intro pts
      induction pts with
      | nil => exact fun _ st => ⟨st, rfl⟩
      | cons p pts ih =>
        intro hp st
        have hpd := plain_not_derived (c := c) (fun q hq v hm => hv q (fields_eq hdist ▸ hq) v hm) p (hp p (by simp))
        have hfo := mem_product.mp (hp p (by simp))
        rw [fields_eq hdist] at hfo
        have hstep : ∃ st', aggStep statOf etb f c [] st p = .ok st' := by
          obtain ⟨i, hi⟩ := Frame.idx?_of_mem hcol
          obtain ⟨p', s, rfl, hss⟩ : ∃ p' s, p = p' ++ [s] ∧ s ∈ c.stats := by
            unfold requestedValues at hfo
            rw [List.map_append] at hfo
            have h2 := List.forall₂_drop_append _ _ _ hfo
            generalize hn : ((c.series ++ (if c.indyVals = [] then [] else [(c.indyVar, c.indyVals)])).map
              Prod.snd).length = n at h2
            cases hd : p.drop n with
            | nil => rw [hd] at h2; cases h2
            | cons s t =>
              rw [hd] at h2
              cases h2 with
              | cons hs hnil =>
                cases hnil
                exact ⟨p.take n, s, by rw [← hd, List.take_append_drop], hs⟩
          unfold aggStep
          simp only [hpd, Bool.false_eq_true, if_false, fields_eq hdist]
          have hne : (pointFilters f (((requestedValues c).map Prod.fst).zip (p' ++ [s])) c.fcstVars.head?).isEmpty =
              false := by
            have hl := hfo.length_eq
            have hz : ("stat_name", s) ∈ ((requestedValues c).map Prod.fst).zip (p' ++ [s]) := by
              unfold requestedValues at hl ⊢
              rw [List.map_append] at hl ⊢
              rw [List.zip_append (by simp at hl ⊢; omega)]
              simp
            rw [Bool.eq_false_iff]
            intro he
            rw [List.isEmpty_iff] at he
            have hm : (fun r => fieldMatches (cellAt r i) s) ∈
                pointFilters f (((requestedValues c).map Prod.fst).zip (p' ++ [s])) c.fcstVars.head? :=
              List.mem_append_left _ (List.mem_filterMap.mpr ⟨_, hz, by simp [hi]⟩)
            rw [he] at hm; simp at hm
          unfold pointRows
          rw [hne]
          simp only [Bool.false_eq_true, if_false, bind, Except.bind]
          split
          · exact ⟨_, rfl⟩
          · next he =>
            rw [pointStat_last _ _ _ _ hss]
            obtain ⟨v, hv'⟩ := hs s hss _ (fun e0 => he (List.isEmpty_iff.mpr e0)) List.filter_sublist
            rw [hv']
            exact ⟨_, rfl⟩
        obtain ⟨st', hst'⟩ := hstep
        obtain ⟨st'', hst''⟩ := ih (fun q hq => hp q (by simp [hq])) st'
        exact ⟨st'', by rw [List.foldlM_cons, hst']; exact hst''⟩
    obtain ⟨st, hst⟩ := hloop c.plainPoints (fun _ h => h) ⟨"", [], []⟩
    refine ⟨st.out, ?_⟩
    simp only [List.mapM_nil, pure, Except.pure, bind, Except.bind, List.foldl_nil, List.flatMap_nil, List.append_nil]
    rw [hst]

end Metcalcpy.Props
