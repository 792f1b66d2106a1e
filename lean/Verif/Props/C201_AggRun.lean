/-
C201 With event equalization every value of an aggregation table is the statistic of the input rows of its point whose
     case is common to all series; the series are compared over the same cases.
C202 Event equalization never counts an input row twice.
C203 Switching event equalization on and off; the two axes of a run.
-/
import Verif.Model.AggRun
import Std.Data.String.ToNat
import Verif.Props.C54_EqualizeAxis
import Verif.Props.C99_AggPoints

namespace Metcalcpy.Props
open Metcalcpy Spec

/-! ### Specification -/

/-- A text that is neither a number nor the mark of a missing value. -/
def PlainText (w : String) : Prop := (∀ z, ¬ IsIntText w z) ∧ (∀ q, ¬ IsDecimal w q) ∧ w ≠ "NA"

/-- The case of row `r` is common to all series: for every choice of one value for each series variable and each fixed
variable there is a row with these values, the same forecast variable and statistic, and the same case. -/
def CommonToAll (f : Frame) (series : List (String × List String)) (parts : String → List String)
    (fix : List (String × List String)) (fv st : String) (key : List Val → String) (r : List Val) : Prop :=
  ∀ q, Choice (series.map (fun x => (x.1, x.2.flatMap parts)) ++ fix) q →
    ∃ r' ∈ f.rows, InSeries f q r' ∧ HasCell f r' "fcst_var" (.str fv) ∧
      HasCell f r' "stat_name" (.str st) ∧ key r' = key r

/-- What identifies a point: the values `as` of the series variables, the independent value and the statistic. -/
def pointRequest (series : List (String × List String)) (indy : String) (as : List String) (i st : String) :
    List (String × String) :=
  (series.map Prod.fst).zip as ++ [(indy, i), ("stat_name", st)]

/-- A run with event equalization on one axis with the series variables `init` and `sv` (a value `v` of which stands for
the texts `parts v`), fixed variables `fix`, first forecast variable `fv` with the statistics `sts`.  The values of the
last series variable are texts. -/
structure OneAxisRun (f : Frame) (p : AggParams) (init : List (String × List String)) (sv : String × List String)
    (parts : String → List String) (fix : List (String × List String)) (fv : String) (sts : List String)
    (rest : List (String × List String)) : Prop where
  input : EqInput f p.indyVar true
  forecast : "fcst_var" ∈ f.cols
  statistic : "stat_name" ∈ f.cols
  on : p.eventEqual = "True"
  series : p.axis₁.series = init ++ [sv]
  second : p.axis₂.series = []
  fixed : p.fixed = fix.map (fun q => (q.1, [q.2]))
  names : ((init ++ [sv] ++ fix).map Prod.fst).Nodup
  columns : ∀ v ∈ init ++ [sv] ++ fix, v.1 ∈ f.cols ∧ v.1 ∉ timeColumns ∧ v.2 ≠ []
  groups : ∀ x ∈ init ++ [sv], ∀ v ∈ x.2, IsGroup v (parts v) ∧ ';' ∉ v.toList
  texts : ∀ v ∈ sv.2, ∀ w ∈ parts v, PlainText w
  fcst : p.axis₁.fcstVarVal = (fv, sts) :: rest
  pairs : (p.axis₁.fcstVarVal.flatMap (fun q => q.2.map (fun s => (q.1, s)))).Nodup
  stats : ∀ st ∈ p.axis₁.stats, st ∈ sts ∧ ':' ∉ st.toList ∧ ';' ∉ st.toList ∧ PlainText st
  indy : p.indyVals ≠ [] ∧ ∀ i ∈ p.indyVals, ∃ vals, StandsFor i vals
  somestat : sts ≠ []
  distinct : p.indyVar ∉ (init ++ [sv]).map Prod.fst ∧ "stat_name" ∉ (init ++ [sv]).map Prod.fst ∧
    p.indyVar ≠ "stat_name"
  plain : (∀ x ∈ init ++ [sv], ∀ v ∈ x.2, isDerivedPoint (some [v]) = false) ∧
    (∀ v ∈ p.indyVals, isDerivedPoint (some [v]) = false) ∧ ∀ v ∈ p.axis₁.stats, isDerivedPoint (some [v]) = false

/-! ### Lemmas -/

theorem standsFor_group {v : String} {vals : List String} (h : IsGroup v vals) (hs : ';' ∉ v.toList) :
    StandsFor v vals := by
  by_cases hc : ':' ∈ v.toList
  · exact Or.inl ⟨hc, h⟩
  · refine Or.inr ⟨hc, h.1, ?_, ?_⟩
    · rw [h.2.1]
      cases vals with
      | nil => exact absurd rfl h.1
      | cons a t =>
        cases t with
        | nil => simp [List.intercalate]
        | cons b t =>
          exfalso
          apply hc
          rw [h.2.1]
          simp [List.intercalate, List.intersperse]
    · intro w hw hx
      apply hs
      rw [h.2.1]
      have : ∀ l : List (List Char), ∀ x ∈ l, ∀ c ∈ x, c ∈ [':'].intercalate l := by
        intro l
        induction l with
        | nil => simp
        | cons a t ih =>
          intro x hx c hc
          cases t with
          | nil =>
            simp only [List.mem_singleton] at hx
            subst hx
            simpa [List.intercalate] using hc
          | cons b t =>
            have e : [':'].intercalate (a :: b :: t) = a ++ ':' :: [':'].intercalate (b :: t) := by
              simp [List.intercalate, List.intersperse]
            rw [e]
            rcases List.mem_cons.mp hx with rfl | hx
            · simp [hc]
            · simp only [List.mem_append, List.mem_cons]
              exact Or.inr (Or.inr (ih x hx c hc))
      exact this _ _ (List.mem_map_of_mem hw) _ hx

theorem standsFor_unique {v : String} {a b : List String} (ha : StandsFor v a) (hb : StandsFor v b) : a = b := by
  rw [← pointParts_eq ha, ← pointParts_eq hb]

theorem cellAmong_text {v : Val} {a : String} {vals : List String} (h : StandsFor a vals)
    (hp : ∀ w ∈ vals, PlainText w) : CellAmong v a ↔ ∃ w ∈ vals, v = .str w := by
  constructor
  · rintro ⟨vals', h', w, hw, hc⟩
    obtain rfl := standsFor_unique h' h
    obtain ⟨h1, h2, -⟩ := hp w hw
    rcases hc with ⟨z, hz, -⟩ | ⟨q, hq, -⟩ | ⟨-, -, e⟩
    · exact absurd hz (h1 z)
    · exact absurd hq (h2 q)
    · exact ⟨w, hw, e⟩
  · rintro ⟨w, hw, e⟩
    exact ⟨vals, h, w, hw, Or.inr (Or.inr ⟨(hp w hw).1, (hp w hw).2.1, e⟩)⟩

theorem valueIs_text {v : Val} {w : String} (hp : PlainText w) : ValueIs v w ↔ v = .str w := by
  unfold ValueIs
  constructor
  · rintro (⟨z, hz, -⟩ | ⟨-, hn, -⟩ | ⟨-, -, e⟩)
    · exact absurd hz (hp.1 z)
    · exact absurd hn hp.2.2
    · exact e
  · exact fun e => Or.inr (Or.inr ⟨hp.1, hp.2.2, e⟩)

theorem plain_standsFor {st : String} (h1 : ':' ∉ st.toList) (h2 : ';' ∉ st.toList) : StandsFor st [st] :=
  Or.inr ⟨h1, by simp, by simp [List.intercalate], by simpa using h2⟩

theorem hasCell_eq {f : Frame} {r : List Val} {name : String} {a b : Val} (hm : name ∈ f.cols)
    (ha : HasCell f r name a) (hb : HasCell f r name b) : a = b := by
  obtain ⟨i, hi⟩ := Frame.idx?_of_mem hm
  exact (hasCell_unique hi ha).symm.trans (hasCell_unique hi hb)

theorem flatMap_single {α β : Type*} [DecidableEq α] (F : α → List β) (x : α) :
    ∀ l : List α, l.Nodup → x ∈ l → (∀ y ∈ l, y ≠ x → F y = []) → l.flatMap F = F x := by
  intro l
  induction l with
  | nil => intro _ h; simp at h
  | cons a t ih =>
    intro hn hx hF
    rw [List.flatMap_cons]
    rw [List.nodup_cons] at hn
    by_cases e : a = x
    · subst e
      have : t.flatMap F = [] := by
        rw [List.flatMap_eq_nil_iff]
        intro y hy
        exact hF y (by simp [hy]) (fun e => hn.1 (e ▸ hy))
      rw [this, List.append_nil]
    · rw [hF a (by simp) e, List.nil_append]
      exact ih hn.2 (by simpa [Ne.symm e] using hx) (fun y hy => hF y (by simp [hy]))

theorem fixVals_single (fix : List (String × List String)) (p : AggParams)
    (h : p.fixed = fix.map (fun q => (q.1, [q.2]))) :
    p.fixed.map Prod.fst = fix.map Prod.fst ∧ p.fixVals = fix.map Prod.snd := by
  unfold AggParams.fixVals
  rw [h]
  constructor
  · rw [List.map_map]; rfl
  · rw [List.map_map]
    apply List.map_congr_left
    intro q _
    show (product [q.2]).flatten = q.2
    simp only [product, List.map_cons, List.map_nil]
    induction q.2 with
    | nil => rfl
    | cons a t ih => rw [List.flatMap_cons, List.flatten_append, ih]; rfl

theorem forall₂_snoc {α β : Type*} {R : α → β → Prop} {l : List α} {l₂ : List β} {b : β}
    (h : List.Forall₂ R l (l₂ ++ [b])) : ∃ l₁ a, l = l₁ ++ [a] ∧ List.Forall₂ R l₁ l₂ ∧ R a b := by
  induction l₂ generalizing l with
  | nil =>
    cases h with
    | cons h1 h2 =>
      cases h2
      exact ⟨[], _, rfl, .nil, h1⟩
  | cons c l₂ ih =>
    cases h with
    | cons h1 h2 =>
      obtain ⟨l₁, a, rfl, h3, h4⟩ := ih h2
      exact ⟨_ :: l₁, a, rfl, .cons h1 h3, h4⟩

section
variable {f : Frame} {p : AggParams} {init : List (String × List String)} {sv : String × List String}
  {parts : String → List String}
  {fix : List (String × List String)} {fv : String} {sts : List String} {rest : List (String × List String)}

/-- What is needed from the equalization. -/
theorem equalize_ok (R : OneAxisRun f p init sv parts fix fv sts rest) (key : List Val → String)
    (hkey : ∀ r ∈ f.rows, IsCaseKey f p.indyVar true r (key r)) :
    p.equalize f = .ok ⟨f.cols, (p.axis₁.fcstVarVal.flatMap (fun q => q.2.map (fun s => (q.1, s)))).flatMap
      (keptRows f sv ((init ++ [sv]).map (fun x => (x.1, x.2.flatMap parts)) ++ fix) key)⟩ := by
  have hsv := R.columns sv (by simp)
  have hvars := C01_variables (init ++ [sv]) fix parts (by
    intro x hx _ v hv
    exact (R.groups x hx v hv).1) R.names
  have hf1 : (init ++ [sv]).filter (fun x => decide (x.1 ∉ timeColumns)) = init ++ [sv] := by
    rw [List.filter_eq_self]
    intro x hx
    simpa using (R.columns x (List.mem_append_left _ hx)).2.1
  have hf2 : fix.filter (fun x => decide (x.1 ∉ timeColumns)) = fix := by
    rw [List.filter_eq_self]
    intro x hx
    simpa using (R.columns x (List.mem_append_right _ hx)).2.1
  rw [hf1, hf2] at hvars
  obtain ⟨e1, e2⟩ := fixVals_single fix p R.fixed
  obtain ⟨out, h1, h2, h3⟩ := C54_result f p.indyVar p.axis₁.fcstVarVal init sv (fix.map Prod.fst) (fix.map Prod.snd)
    ((init ++ [sv]).map (fun x => (x.1, x.2.flatMap parts)) ++ fix) key R.input hvars (by
      intro v hv
      rcases List.mem_append.mp hv with hv | hv
      · obtain ⟨x, hx, rfl⟩ := List.mem_map.mp hv
        exact (R.columns x (List.mem_append_left _ hx)).1
      · exact (R.columns v (List.mem_append_right _ hv)).1) (by
      intro v hv
      rcases List.mem_append.mp hv with hv | hv
      · obtain ⟨x, hx, rfl⟩ := List.mem_map.mp hv
        obtain ⟨a, ha⟩ := List.exists_mem_of_ne_nil _ (R.columns x (List.mem_append_left _ hx)).2.2
        obtain ⟨w, hw⟩ := List.exists_mem_of_ne_nil _ (R.groups x hx a ha).1.1
        exact List.ne_nil_of_mem (List.mem_flatMap.mpr ⟨a, ha, hw⟩)
      · exact (R.columns v (List.mem_append_right _ hv)).2.2) hkey hsv.1
  unfold AggParams.equalize
  rw [R.second, R.series, e1, e2]
  simp only [List.isEmpty_nil, if_true]
  rw [h1]
  have hp : p.axis₁.fcstVarVal.flatMap (fun q => q.2.map (fun s => (q.1, s))) ≠ [] := by
    rw [R.fcst]
    obtain ⟨s, hs⟩ := List.exists_mem_of_ne_nil _ R.somestat
    exact List.ne_nil_of_mem (List.mem_flatMap.mpr ⟨(fv, sts), by simp, List.mem_map_of_mem hs⟩)
  have h4 := h3 hp
  obtain ⟨oc, orows⟩ := out
  simp only at h2 h4
  rw [h2, h4]

theorem requested_eq (R : OneAxisRun f p init sv parts fix fv sts rest) :
    requestedValues (p.config p.axis₁) = init ++ [sv] ++ [(p.indyVar, p.indyVals)] ++ [("stat_name", p.axis₁.stats)] := by
  unfold requestedValues AggParams.config
  simp only [R.series, if_neg R.indy.1]

/-- A selected row of a common case, for any forecast variable. -/
theorem common_iff_any (R : OneAxisRun f p init sv parts fix fv sts rest) (key : List Val → String) (fv' st : String)
    (r : List Val) :
    (open Classical in IsCommonCase { f with rows := f.rows.filter (fun r => decide (Selected f sv fv' st r)) }
      ((init ++ [sv]).map (fun x => (x.1, x.2.flatMap parts)) ++ fix) key r) ↔
        CommonToAll f (init ++ [sv]) parts fix fv' st key r := by
  classical
  have hun : sv.2.flatMap ungroup = sv.2.flatMap parts := by
    apply List.flatMap_congr
    intro v hv
    exact C01_ungroup v _ (R.groups sv (by simp) v hv).1
  have hplain : ∀ w ∈ sv.2.flatMap parts, PlainText w := by
    intro w hw
    obtain ⟨v, hv, hw⟩ := List.mem_flatMap.mp hw
    exact R.texts v hv w hw
  unfold IsCommonCase CommonToAll
  refine forall_congr' fun q => forall_congr' fun hq => ?_
  constructor
  · rintro ⟨r', h1, h2, h3⟩
    simp only [List.mem_filter, decide_eq_true_eq] at h1
    exact ⟨r', h1.1, h2, h1.2.2.1 R.forecast, h1.2.2.2 R.statistic, h3⟩
  · rintro ⟨r', h1, h2, h3, h4, h5⟩
    refine ⟨r', ?_, h2, h5⟩
    simp only [List.mem_filter, decide_eq_true_eq]
    refine ⟨h1, fun _ => ?_, fun _ => h3, fun _ => h4⟩
    obtain ⟨y, hy, hy1, hy2⟩ : ∃ y ∈ q, y.1 = sv.1 ∧ y.2 ∈ sv.2.flatMap parts := by
      have : ∀ (l : List (String × List String)) (q : List (String × String)), Choice l q → ∀ x ∈ l,
          ∃ y ∈ q, y.1 = x.1 ∧ y.2 ∈ x.2 := by
        intro l q hq
        induction hq with
        | nil => simp
        | cons h1 _ ih =>
          intro x hx
          rcases List.mem_cons.mp hx with rfl | hx
          · exact ⟨_, by simp, h1⟩
          · obtain ⟨y, hy, h⟩ := ih x hx
            exact ⟨y, by simp [hy], h⟩
      exact this _ q hq (sv.1, sv.2.flatMap parts) (by simp)
    obtain ⟨v, hv, hvi⟩ := h2 y hy
    rw [valueIs_text (hplain _ hy2)] at hvi
    subst hvi
    rw [hy1] at hv
    exact ⟨y.2, hun ▸ hy2, hv⟩

/-- A selected row of a common case. -/
theorem common_iff (R : OneAxisRun f p init sv parts fix fv sts rest) (key : List Val → String) (st : String)
    (r : List Val) :
    (open Classical in IsCommonCase { f with rows := f.rows.filter (fun r => decide (Selected f sv fv st r)) }
      ((init ++ [sv]).map (fun x => (x.1, x.2.flatMap parts)) ++ fix) key r) ↔
        CommonToAll f (init ++ [sv]) parts fix fv st key r :=
  common_iff_any R key fv st r

open Classical in
/-- The rows of a point in the equalized data. -/
theorem equalized_point (R : OneAxisRun f p init sv parts fix fv sts rest) (key : List Val → String)
    (as : List String) (a i st : String) (hlen : as.length = init.length) (ha : a ∈ sv.2) (hst : st ∈ p.axis₁.stats) :
    ((p.axis₁.fcstVarVal.flatMap (fun q => q.2.map (fun s => (q.1, s)))).flatMap
      (keptRows f sv ((init ++ [sv]).map (fun x => (x.1, x.2.flatMap parts)) ++ fix) key)).filter
        (fun r => decide (RowOf f (pointRequest (init ++ [sv]) p.indyVar (as ++ [a]) i st) (some fv) r)) =
    f.rows.filter (fun r => decide (RowOf f (pointRequest (init ++ [sv]) p.indyVar (as ++ [a]) i st) (some fv) r ∧
      CommonToAll f (init ++ [sv]) parts fix fv st key r)) := by
  have hsv := (R.columns sv (by simp)).1
  obtain ⟨hs1, hs2, hs3, hs4⟩ := R.stats st hst
  have hgr := R.groups sv (by simp) a ha
  have hcell : ∀ r, RowOf f (pointRequest (init ++ [sv]) p.indyVar (as ++ [a]) i st) (some fv) r →
      (∃ w ∈ parts a, HasCell f r sv.1 (.str w)) ∧ HasCell f r "stat_name" (.str st) ∧
        HasCell f r "fcst_var" (.str fv) := by
    intro r h
    refine ⟨?_, ?_, h.2 fv rfl R.forecast⟩
    · obtain ⟨v, hv, hc⟩ := h.1 (sv.1, a) (by
        unfold pointRequest
        rw [List.map_append, List.zip_append (by simp [hlen])]
        simp) hsv
      obtain ⟨w, hw, rfl⟩ := (cellAmong_text (standsFor_group hgr.1 hgr.2) (R.texts a ha)).mp hc
      exact ⟨w, hw, hv⟩
    · obtain ⟨v, hv, hc⟩ := h.1 ("stat_name", st) (by simp [pointRequest]) R.statistic
      obtain ⟨w, hw, rfl⟩ := (cellAmong_text (plain_standsFor hs2 hs3) (by simpa using hs4)).mp hc
      simp only [List.mem_singleton] at hw
      subst hw
      exact hv
  rw [List.filter_flatMap]
  rw [flatMap_single _ (fv, st) _ R.pairs]
  · unfold keptRows
    rw [List.filter_filter, List.filter_filter]
    apply List.filter_congr
    intro r hr
    rw [Bool.eq_iff_iff]
    simp only [Bool.and_eq_true, decide_eq_true_eq]
    constructor
    · rintro ⟨⟨h1, h2⟩, h3⟩
      exact ⟨h1, (common_iff R key st r).mp h2⟩
    · rintro ⟨h1, h2⟩
      refine ⟨⟨h1, (common_iff R key st r).mpr h2⟩, ?_⟩
      obtain ⟨⟨w, hw, h4⟩, h5, h6⟩ := hcell r h1
      exact ⟨fun _ => ⟨w, List.mem_flatMap.mpr ⟨a, ha, by rw [C01_ungroup a _ hgr.1]; exact hw⟩, h4⟩, fun _ => h6,
        fun _ => h5⟩
  · rw [R.fcst]
    exact List.mem_flatMap.mpr ⟨(fv, sts), by simp, List.mem_map_of_mem hs1⟩
  · rintro ⟨fv', st'⟩ - hne
    rw [List.filter_eq_nil_iff]
    intro r hr hd
    simp only [decide_eq_true_eq] at hd
    unfold keptRows at hr
    simp only [List.mem_filter, decide_eq_true_eq] at hr
    obtain ⟨-, h5, h6⟩ := hcell r hd
    have e1 := hasCell_eq R.forecast h6 (hr.1.2.2.1 R.forecast)
    have e2 := hasCell_eq R.statistic h5 (hr.1.2.2.2 R.statistic)
    simp only [Val.str.injEq] at e1 e2
    exact hne (by rw [e1, e2])

theorem config_fields (R : OneAxisRun f p init sv parts fix fv sts rest) : FieldsDistinct (p.config p.axis₁) := by
  unfold FieldsDistinct AggParams.config
  simp only [R.series]
  exact R.distinct

open Classical in
/-- C201: with event equalization on, the table is empty exactly if no input row has a common case; otherwise it begins
with one row for every combination of series values `as`, independent value `i` and statistic `st`, and that row counts
and summarises exactly the input rows with these values whose case is common to all series.  (Also when several series
variables are listed, although the equalized data itself then contains further rows, see C54.) -/
theorem C201_values_partial (statOf : String → List (List Val) → Except PyErr PyNum)
    (etb : List PyNum → List PyNum → PyNum) (out : List AggOut)
    (R : OneAxisRun f p init sv parts fix fv sts rest) (key : List Val → String)
    (hkey : ∀ r ∈ f.rows, IsCaseKey f p.indyVar true r (key r)) (h : aggRun statOf etb f p = .ok out) :
    (out = [] ∧ ∀ st ∈ sts, ∀ r ∈ f.rows, (∃ w ∈ sv.2.flatMap parts, HasCell f r sv.1 (.str w)) →
      HasCell f r "fcst_var" (.str fv) → HasCell f r "stat_name" (.str st) →
        ¬ CommonToAll f (init ++ [sv]) parts fix fv st key r) ∨
    ∃ plain derived, out = plain ++ derived ∧
      (∀ pt, pt ∈ plain.map AggOut.point ↔
        ∃ as, List.Forall₂ (fun x q => x ∈ q.2) as (init ++ [sv]) ∧ ∃ i ∈ p.indyVals, ∃ st ∈ p.axis₁.stats,
          pt = as ++ [i, st]) ∧
      ∀ o ∈ plain, ∀ as i st, o.point = as ++ [i, st] → ∀ rows, rows = f.rows.filter (fun r =>
          decide (RowOf f (pointRequest (init ++ [sv]) p.indyVar as i st) (some fv) r ∧
            CommonToAll f (init ++ [sv]) parts fix fv st key r)) →
        o.nstats = rows.length ∧ (rows = [] → o.value = .none) ∧
          (rows ≠ [] → statOf (lower st) rows = .ok o.value) := by
  have hrv := requested_eq R
  have hg := equalize_ok R key hkey
  have hfd := config_fields R
  generalize hG : (p.axis₁.fcstVarVal.flatMap (fun q => q.2.map (fun s => (q.1, s)))).flatMap
      (keptRows f sv ((init ++ [sv]).map (fun x => (x.1, x.2.flatMap parts)) ++ fix) key) = G at hg
  unfold aggRun at h
  rw [R.on, R.second] at h
  have ht : truthy (parseBool "True") = true := rfl
  rw [ht, if_pos rfl, hg] at h
  simp only [bind, Except.bind, List.isEmpty_nil, if_true] at h
  obtain ⟨o₁, ho, e⟩ : ∃ o₁, aggAxis statOf etb ⟨f.cols, G⟩ (p.config p.axis₁) = .ok o₁ ∧ o₁ = out := by
    split at h
    · simp at h
    · next o₁ ho => exact ⟨o₁, ho, by simpa using h⟩
  subst e
  by_cases hGe : G = []
  · left
    constructor
    · subst hGe
      unfold aggAxis at ho
      rw [if_pos (by simp [Frame.isEmpty])] at ho
      simpa using ho.symm
    · intro st hst r hr ⟨w, hw, hc⟩ h1 h2 hcom
      have hun : sv.2.flatMap ungroup = sv.2.flatMap parts := by
        apply List.flatMap_congr
        intro v hv
        exact C01_ungroup v _ (R.groups sv (by simp) v hv).1
      have : r ∈ G := by
        rw [← hG, R.fcst]
        refine List.mem_flatMap.mpr ⟨(fv, st), List.mem_flatMap.mpr ⟨(fv, sts), by simp, List.mem_map_of_mem hst⟩, ?_⟩
        unfold keptRows
        simp only [List.mem_filter, decide_eq_true_eq]
        exact ⟨⟨hr, fun _ => ⟨w, hun ▸ hw, hc⟩, fun _ => h1, fun _ => h2⟩, (common_iff R key st r).mpr hcom⟩
      rw [hGe] at this
      simp at this
  · right
    have hsub : ∀ r ∈ G, r ∈ f.rows := by
      intro r hr
      rw [← hG] at hr
      unfold keptRows at hr
      simp only [List.mem_flatMap, List.mem_filter] at hr
      obtain ⟨_, _, h3⟩ := hr
      exact h3.1.1
    obtain ⟨plain, derived, e, hpts, -, hrows, -⟩ := C99_rows statOf etb ⟨f.cols, G⟩ (p.config p.axis₁) o₁
      (fun r hr => R.input.wf r (hsub r hr)) ⟨hGe, List.ne_nil_of_mem R.forecast⟩ hfd (by
        rw [hrv]
        intro q hq v hv
        rcases List.mem_append.mp hq with hq | hq
        · rcases List.mem_append.mp hq with hq | hq
          · exact ⟨⟨_, standsFor_group (R.groups q hq v hv).1 (R.groups q hq v hv).2⟩, R.plain.1 q hq v hv⟩
          · simp only [List.mem_singleton] at hq
            subst hq
            exact ⟨R.indy.2 v hv, R.plain.2.1 v hv⟩
        · simp only [List.mem_singleton] at hq
          subst hq
          exact ⟨⟨_, plain_standsFor (R.stats v hv).2.1 (R.stats v hv).2.2.1⟩, R.plain.2.2 v hv⟩) ho
    have hpts' : ∀ pt, pt ∈ plain.map AggOut.point ↔
        ∃ as, List.Forall₂ (fun x q => x ∈ q.2) as (init ++ [sv]) ∧ ∃ i ∈ p.indyVals, ∃ st ∈ p.axis₁.stats,
          pt = as ++ [i, st] := by
      intro pt
      rw [hpts, hrv]
      constructor
      · intro h
        obtain ⟨l₁, st, rfl, h1, hst⟩ := forall₂_snoc h
        obtain ⟨as, i, rfl, h2, hi⟩ := forall₂_snoc h1
        exact ⟨as, h2, i, hi, st, hst, by simp⟩
      · rintro ⟨as, ha, i, hi, st, hs, rfl⟩
        have : as ++ [i, st] = as ++ [i] ++ [st] := by simp
        rw [this]
        exact List.rel_append (List.rel_append ha (.cons hi .nil)) (.cons hs .nil)
    refine ⟨plain, derived, e, hpts', ?_⟩
    intro o ho' as i st hpt rows hr
    obtain ⟨as', ha, i', hi, st', hst, e'⟩ := (hpts' o.point).mp (List.mem_map_of_mem ho')
    rw [hpt] at e'
    obtain ⟨rfl, e4⟩ := List.append_inj' e' (by simp)
    simp only [List.cons.injEq, and_true] at e4
    obtain ⟨rfl, rfl⟩ := e4
    obtain ⟨as, a, rfl, h2, ha⟩ := forall₂_snoc ha
    have heq := equalized_point R key as a i st h2.length_eq ha hst
    rw [hG] at heq
    have hhead : (p.config p.axis₁).fcstVars.head? = some fv := by simp [AggParams.config, R.fcst]
    obtain ⟨-, h1, h2', h3⟩ := hrows o ho' rows (by
      rw [hr, ← heq, hrv, hpt, hhead]
      have hz : ((init ++ [sv] ++ [(p.indyVar, p.indyVals)] ++ [("stat_name", p.axis₁.stats)]).map Prod.fst).zip
          (as ++ [a] ++ [i, st]) = pointRequest (init ++ [sv]) p.indyVar (as ++ [a]) i st := by
        unfold pointRequest
        rw [List.append_assoc, List.map_append, List.zip_append (by simp [h2.length_eq])]
        rfl
      rw [hz]
      rfl)
    refine ⟨h1, h2', fun hne => ?_⟩
    obtain ⟨s, hs, hv⟩ := h3 hne
    rw [hpt] at hs
    simp only [List.getLast?_append, List.getLast?_cons_cons, List.getLast?_singleton, Option.some.injEq,
      Option.or_some, Option.some_or] at hs
    subst hs
    exact hv

/-- Rows of the same case have the same independent value. -/
def CaseFixesIndependent (f : Frame) (indy : String) (key : List Val → String) : Prop :=
  ∀ r ∈ f.rows, ∀ r' ∈ f.rows, key r = key r' → ∀ v, HasCell f r indy v → HasCell f r' indy v

theorem blank_split {a b c d : List Char} (h : a ++ ' ' :: b = c ++ ' ' :: d) (hb : ' ' ∉ b) (hd : ' ' ∉ d) :
    b = d := by
  rcases List.append_eq_append_iff.mp h with ⟨t, -, ht⟩ | ⟨t, -, ht⟩
  · cases t with
    | nil => simpa using ht
    | cons x t =>
      simp only [List.cons_append, List.cons.injEq] at ht
      exact absurd (ht.2 ▸ by simp) hb
  · cases t with
    | nil => simpa using ht.symm
    | cons x t =>
      simp only [List.cons_append, List.cons.injEq] at ht
      exact absurd (ht.2 ▸ by simp) hd

/-- Rows of the same case have the same independent value if the independent variable is the lead time or no time
column, its cells have texts without blanks, and equal texts mean equal cells. -/
theorem C201_case_fixes_independent (indy : String) (key : List Val → String) (I : EqInput f indy true)
    (hkey : ∀ r ∈ f.rows, IsCaseKey f indy true r (key r)) (hi : indy = "fcst_lead" ∨ indy ∉ timeColumns)
    (hb : ∀ r ∈ f.rows, ∀ v, HasCell f r indy v → ' ' ∉ v.text.toList)
    (ht : ∀ r ∈ f.rows, ∀ r' ∈ f.rows, ∀ v v', HasCell f r indy v → HasCell f r' indy v' → v.text = v'.text → v = v') :
    CaseFixesIndependent f indy key := by
  have hcol : indy ∈ f.cols := by
    rcases hi with rfl | hi
    · exact I.lead
    · exact I.indep rfl hi
  have hform : ∀ r ∈ f.rows, ∃ v x, HasCell f r indy v ∧ key r = x ++ " " ++ v.text := by
    intro r hr
    obtain ⟨valid, lead, -, h2, h3⟩ := hkey r hr
    rcases hi with rfl | hi
    · rw [if_neg (by decide)] at h3
      exact ⟨lead, valid.text, h2, h3⟩
    · rw [if_pos ⟨rfl, hi⟩] at h3
      obtain ⟨v, hv, h3⟩ := h3
      exact ⟨v, valid.text ++ " " ++ lead.text, hv, h3⟩
  intro r hr r' hr' he v hv
  obtain ⟨w, x, hw, hx⟩ := hform r hr
  obtain ⟨w', x', hw', hx'⟩ := hform r' hr'
  obtain rfl := hasCell_eq hcol hv hw
  have e : w'.text = v.text := by
    rw [he, hx'] at hx
    have := congrArg String.toList hx
    simp only [String.toList_append] at this
    rw [List.append_assoc, List.append_assoc] at this
    have := blank_split this (hb r' hr' _ hw') (hb r hr _ hv)
    exact String.toList_injective this
  rw [ht r' hr' r hr w' v hw' hv e] at hw'
  exact hw'

/-- A request that the equalization and the aggregation read in the same way: not a decimal number and not "NA". -/
def ReadAlike (w : String) : Prop := (∀ q, ¬ IsDecimal w q) ∧ w ≠ "NA"

theorem cellIs_of_valueIs {v : Val} {w : String} (h : ReadAlike w) (hv : ValueIs v w) : CellIs v w := by
  rcases hv with hv | ⟨-, hn, -⟩ | ⟨h1, -, e⟩
  · exact Or.inl hv
  · exact absurd hn h.2
  · exact Or.inr (Or.inr ⟨h1, h.1, e⟩)

theorem choice_exists : ∀ fix : List (String × List String), (∀ v ∈ fix, v.2 ≠ []) → ∃ q, Choice fix q
  | [], _ => ⟨[], .nil⟩
  | v :: fix, h => by
    obtain ⟨q, hq⟩ := choice_exists fix (fun x hx => h x (by simp [hx]))
    obtain ⟨w, hw⟩ := List.exists_mem_of_ne_nil _ (h v (by simp))
    exact ⟨(v.1, w) :: q, .cons ⟨rfl, hw⟩ hq⟩

/-- For every combination of series values there is a choice whose rows belong to that combination. -/
theorem choice_of_point : ∀ (series : List (String × List String)) (bs : List String),
    (∀ x ∈ series, ∀ v ∈ x.2, IsGroup v (parts v) ∧ ';' ∉ v.toList) →
    (∀ x ∈ series, ∀ v ∈ x.2, ∀ w ∈ parts v, ReadAlike w) →
    List.Forall₂ (fun x q => x ∈ q.2) bs series →
    ∃ c, Choice (series.map (fun x => (x.1, x.2.flatMap parts))) c ∧
      ∀ r, InSeries f c r → ∀ y ∈ (series.map Prod.fst).zip bs, ∃ v, HasCell f r y.1 v ∧ CellAmong v y.2
  | [], bs, _, _, h => by
    cases h
    exact ⟨[], .nil, by simp⟩
  | x :: series, bs, hg, ha, h => by
    cases h with
    | @cons b _ bs _ hb h =>
      obtain ⟨c, hc, hr⟩ := choice_of_point series bs (fun y hy => hg y (by simp [hy]))
        (fun y hy => ha y (by simp [hy])) h
      have g := hg x (by simp) b hb
      obtain ⟨w, hw⟩ := List.exists_mem_of_ne_nil _ g.1.1
      refine ⟨(x.1, w) :: c, .cons ⟨rfl, List.mem_flatMap.mpr ⟨b, hb, hw⟩⟩ hc, ?_⟩
      intro r hin y hy
      rw [List.map_cons, List.zip_cons_cons] at hy
      rcases List.mem_cons.mp hy with rfl | hy
      · obtain ⟨v, hv, hvi⟩ := hin (x.1, w) (by simp)
        exact ⟨v, hv, _, standsFor_group g.1 g.2, w, hw, cellIs_of_valueIs (ha x (by simp) b hb w hw) hvi⟩
      · exact hr r (fun z hz => hin z (by simp [hz])) y hy

open Classical in
theorem same_cases_sub (R : OneAxisRun f p init sv parts fix fv sts rest) (key : List Val → String)
    (hindy : CaseFixesIndependent f p.indyVar key)
    (hread : ∀ x ∈ init ++ [sv], ∀ v ∈ x.2, ∀ w ∈ parts v, ReadAlike w) {as bs : List String} {i st : String}
    (hb : List.Forall₂ (fun x q => x ∈ q.2) bs (init ++ [sv])) (hst : st ∈ p.axis₁.stats) (k : String)
    (h : k ∈ (f.rows.filter (fun r => decide (RowOf f (pointRequest (init ++ [sv]) p.indyVar as i st) (some fv) r ∧
      CommonToAll f (init ++ [sv]) parts fix fv st key r))).map key) :
    k ∈ (f.rows.filter (fun r => decide (RowOf f (pointRequest (init ++ [sv]) p.indyVar bs i st) (some fv) r ∧
      CommonToAll f (init ++ [sv]) parts fix fv st key r))).map key := by
  obtain ⟨r, hr, rfl⟩ := List.mem_map.mp h
  simp only [List.mem_filter, decide_eq_true_eq] at hr
  obtain ⟨hr, hrow, hcom⟩ := hr
  obtain ⟨c, hc, hcr⟩ := choice_of_point (f := f) (parts := parts) (init ++ [sv]) bs R.groups hread hb
  obtain ⟨q, hq⟩ := choice_exists fix (fun v hv => (R.columns v (List.mem_append_right _ hv)).2.2)
  obtain ⟨r', h1, h2, h4, h5, h6⟩ := hcom (c ++ q) (List.rel_append hc hq)
  refine List.mem_map.mpr ⟨r', ?_, h6⟩
  simp only [List.mem_filter, decide_eq_true_eq]
  obtain ⟨hs1, hs2, hs3, hs4⟩ := R.stats st hst
  refine ⟨h1, ⟨?_, ?_⟩, ?_⟩
  · intro x hx hm
    unfold pointRequest at hx
    rcases List.mem_append.mp hx with hx | hx
    · exact hcr r' (fun z hz => h2 z (List.mem_append_left _ hz)) x hx
    · simp only [List.mem_cons, List.not_mem_nil, or_false] at hx
      rcases hx with rfl | rfl
      · obtain ⟨v, hv, hc⟩ := hrow.1 (p.indyVar, i) (by simp [pointRequest]) hm
        exact ⟨v, hindy r hr r' h1 h6.symm v hv, hc⟩
      · exact ⟨_, h5, (cellAmong_text (plain_standsFor hs2 hs3) (by simpa using hs4)).mpr ⟨st, by simp, rfl⟩⟩
  · intro x hx _
    simp only [Option.some.injEq] at hx
    subst hx
    exact h4
  · intro q' hq'
    obtain ⟨s, g1, g2, g3, g4, g5⟩ := hcom q' hq'
    exact ⟨s, g1, g2, g3, g4, g5.trans h6.symm⟩

open Classical in
/-- C201: with event equalization on, all series are compared over the same cases: for the same independent value and
statistic the rows behind any two values have the same cases, and if no case occurs twice in a series both values
are computed from the same number of rows. -/
theorem C201_same_cases_partial (statOf : String → List (List Val) → Except PyErr PyNum)
    (etb : List PyNum → List PyNum → PyNum) (out : List AggOut)
    (R : OneAxisRun f p init sv parts fix fv sts rest) (key : List Val → String)
    (hkey : ∀ r ∈ f.rows, IsCaseKey f p.indyVar true r (key r)) (hindy : CaseFixesIndependent f p.indyVar key)
    (hread : ∀ x ∈ init ++ [sv], ∀ v ∈ x.2, ∀ w ∈ parts v, ReadAlike w)
    (h : aggRun statOf etb f p = .ok out) (hne : out ≠ []) :
    ∃ plain derived, out = plain ++ derived ∧
      (∀ pt, pt ∈ plain.map AggOut.point ↔
        ∃ as, List.Forall₂ (fun x q => x ∈ q.2) as (init ++ [sv]) ∧ ∃ i ∈ p.indyVals, ∃ st ∈ p.axis₁.stats,
          pt = as ++ [i, st]) ∧
      ∀ o₁ ∈ plain, ∀ o₂ ∈ plain, ∀ as bs i st, o₁.point = as ++ [i, st] → o₂.point = bs ++ [i, st] →
        ∃ rows₁ rows₂ : List (List Val),
          o₁.nstats = rows₁.length ∧ o₂.nstats = rows₂.length ∧
          (rows₁ ≠ [] → statOf (lower st) rows₁ = .ok o₁.value) ∧
          (rows₂ ≠ [] → statOf (lower st) rows₂ = .ok o₂.value) ∧
          (∀ k, k ∈ rows₁.map key ↔ k ∈ rows₂.map key) ∧
          ((∀ v ∈ [as, bs], ((f.rows.filter (fun r => decide (RowOf f (pointRequest (init ++ [sv]) p.indyVar v i st)
            (some fv) r))).map key).Nodup) → o₁.nstats = o₂.nstats) := by
  rcases C201_values_partial statOf etb out R key hkey h with ⟨h0, -⟩ | ⟨plain, derived, e, hpts, hval⟩
  · exact absurd h0 hne
  · refine ⟨plain, derived, e, hpts, ?_⟩
    intro o₁ m₁ o₂ m₂ as bs i st e₁ e₂
    obtain ⟨v1, v2, v3⟩ := hval o₁ m₁ as i st e₁ _ rfl
    obtain ⟨w1, w2, w3⟩ := hval o₂ m₂ bs i st e₂ _ rfl
    obtain ⟨as', ha, i', hi, st', hst, e'⟩ := (hpts o₁.point).mp (List.mem_map_of_mem m₁)
    rw [e₁] at e'
    obtain ⟨rfl, e4⟩ := List.append_inj' e' (by simp)
    simp only [List.cons.injEq, and_true] at e4
    obtain ⟨rfl, rfl⟩ := e4
    obtain ⟨bs', hb, _, _, _, _, e''⟩ := (hpts o₂.point).mp (List.mem_map_of_mem m₂)
    rw [e₂] at e''
    obtain ⟨rfl, -⟩ := List.append_inj' e'' (by simp)
    have hsame := fun k => (⟨same_cases_sub R key hindy hread (as := as) (bs := bs) (i := i) hb hst k,
      same_cases_sub R key hindy hread (as := bs) (bs := as) (i := i) ha hst k⟩ : _ ↔ _)
    refine ⟨_, _, v1, w1, v3, w3, hsame, ?_⟩
    intro hn
    have hnd : ∀ v ∈ [as, bs], ((f.rows.filter (fun r => decide (RowOf f
        (pointRequest (init ++ [sv]) p.indyVar v i st) (some fv) r ∧
          CommonToAll f (init ++ [sv]) parts fix fv st key r))).map key).Nodup := by
      intro v hv
      refine (hn v hv).sublist (List.Sublist.map key ?_)
      apply List.monotone_filter_right
      intro r hr
      simp only [decide_eq_true_eq] at hr ⊢
      exact hr.1
    have := ((List.perm_ext_iff_of_nodup (hnd as (by simp)) (hnd bs (by simp))).mpr hsame).length_eq
    rw [List.length_map, List.length_map] at this
    rw [v1, w1, this]

end

/-! ### Example for C201 -/

/-- Two models; model B has no row for the second time. -/
def exRunFrame : Frame :=
  { cols := ["fcst_valid_beg", "fcst_lead", "model", "fcst_var", "stat_name"],
    rows := [[.str "t1", .num 6 "6", .str "A", .str "TMP", .str "ME"],
      [.str "t2", .num 6 "6", .str "A", .str "TMP", .str "ME"],
      [.str "t1", .num 6 "6", .str "B", .str "TMP", .str "ME"],
      [.str "t3", .num 6 "6", .str "A", .str "TMP", .str "ME"],
      [.str "t3", .num 6 "6", .str "B", .str "TMP", .str "ME"]] }

def exRunParams : AggParams where
  eventEqual := "True"
  indyVar := "fcst_lead"
  indyVals := ["6"]
  fixed := []
  axis₁ := ⟨[("model", ["A", "B"])], ["ME"], [], [("TMP", ["ME"])]⟩
  axis₂ := ⟨[], [], [], []⟩

/-- The number of rows as a statistic. -/
def countStat (_ : String) (rows : List (List Val)) : Except PyErr PyNum := .ok (.num rows.length)

theorem exRun_result : aggRun countStat (fun _ _ => .none) exRunFrame exRunParams =
    .ok [⟨["A", "6", "ME"], some "TMP", .num 2, 2⟩, ⟨["B", "6", "ME"], some "TMP", .num 2, 2⟩] := by
  decide +kernel

theorem plainText_of {w : String} (h1 : pyInt? w = none) (h2 : isStringStrictlyFloat (some w) = false) (h3 : w ≠ "NA") :
    PlainText w := by
  refine ⟨(pyInt?_none_iff w).mp h1, ?_, h3⟩
  intro q hq
  have := (isDecimal_iff w).mp ⟨q, hq⟩
  rw [h2] at this
  simp at this

theorem group_self {v : String} (h : ':' ∉ v.toList) : IsGroup v [v] := by
  refine ⟨by simp, by simp [List.intercalate], Or.inr ⟨by simpa using h, ?_⟩⟩
  rintro d ⟨year, month, day, hour, minute, second, blank, -, -, -, -, rfl⟩ ⟨s, t, e⟩
  apply h
  rw [← e]
  simp

theorem exRun_input : OneAxisRun exRunFrame exRunParams [] ("model", ["A", "B"]) (fun v => [v]) [] "TMP" ["ME"] [] where
  input := ⟨by unfold FrameWF; decide, by decide, by decide, by decide, by intro _ h; exact absurd (by decide) h⟩
  forecast := by decide
  statistic := by decide
  on := rfl
  series := rfl
  second := rfl
  fixed := rfl
  names := by decide
  columns := by decide
  groups := by
    intro x hx v hv
    obtain rfl : x = ("model", ["A", "B"]) := by simpa using hx
    have : v = "A" ∨ v = "B" := by simpa using hv
    rcases this with rfl | rfl <;> exact ⟨group_self (by decide), by decide⟩
  texts := by
    intro v hv w hw
    obtain rfl : w = v := by simpa using hw
    have : w = "A" ∨ w = "B" := by simpa using hv
    rcases this with rfl | rfl <;> exact plainText_of (by decide) (by decide) (by decide)
  fcst := rfl
  pairs := by decide
  stats := by
    intro st hst
    obtain rfl : st = "ME" := by simpa [exRunParams] using hst
    exact ⟨by simp, by decide, by decide, plainText_of (by decide) (by decide) (by decide)⟩
  indy := ⟨by decide, by
    intro i hi
    obtain rfl : i = "6" := by simpa [exRunParams] using hi
    exact ⟨_, plain_standsFor (by decide) (by decide)⟩⟩
  somestat := by decide
  distinct := by decide
  plain := by decide +kernel

/-- The case of the rows of the example. -/
def exRunKey (r : List Val) : String := (r.getD 0 .null).text ++ " " ++ (r.getD 1 .null).text

theorem exRun_key : ∀ r ∈ exRunFrame.rows, IsCaseKey exRunFrame "fcst_lead" true r (exRunKey r) := by
  intro r hr
  have h0 : ∀ r ∈ exRunFrame.rows, r[0]? = some (r.getD 0 .null) ∧ r[1]? = some (r.getD 1 .null) := by decide
  obtain ⟨e0, e1⟩ := h0 r hr
  refine ⟨r.getD 0 .null, r.getD 1 .null, ⟨0, by decide, by simp, e0⟩, ⟨1, by decide, by decide, e1⟩, ?_⟩
  rw [if_neg (by decide)]
  rfl

/-- The example meets the hypotheses of `C201_same_cases_partial`, and both models use two rows. -/
example : ∃ plain derived : List AggOut,
    [⟨["A", "6", "ME"], some "TMP", .num 2, 2⟩, ⟨["B", "6", "ME"], some "TMP", .num 2, 2⟩] = plain ++ derived ∧
    ∀ pt, pt ∈ plain.map AggOut.point ↔ ∃ as,
      List.Forall₂ (fun x (q : String × List String) => x ∈ q.2) as [("model", ["A", "B"])] ∧
        ∃ i ∈ ["6"], ∃ st ∈ ["ME"], pt = as ++ [i, st] := by
  obtain ⟨plain, derived, h1, h2, -⟩ := C201_same_cases_partial countStat (fun _ _ => .none) _ exRun_input exRunKey
    exRun_key (C201_case_fixes_independent "fcst_lead" exRunKey exRun_input.input exRun_key (Or.inl rfl)
      (by
        intro r hr v hv
        have : v = .num 6 "6" := by
          have h : ∀ r ∈ exRunFrame.rows, r[1]? = some (.num 6 "6") := by decide
          exact hasCell_eq (f := exRunFrame) (by decide) hv ⟨1, by decide, by decide, h r hr⟩
        subst this
        decide)
      (by
        intro r hr r' hr' v v' hv hv' _
        have h : ∀ r ∈ exRunFrame.rows, r[1]? = some (.num 6 "6") := by decide
        rw [hasCell_eq (f := exRunFrame) (by decide) hv ⟨1, by decide, by decide, h r hr⟩,
          hasCell_eq (f := exRunFrame) (by decide) hv' ⟨1, by decide, by decide, h r' hr'⟩]))
    (fun x hx v hv w hw => by
      obtain rfl : x = ("model", ["A", "B"]) := by simpa using hx
      exact ⟨(exRun_input.texts v hv w hw).2.1, (exRun_input.texts v hv w hw).2.2⟩)
    exRun_result (by simp)
  exact ⟨plain, derived, h1, h2⟩

/-- As `exRunFrame`, with a fourth time that only model B has. -/
def exRunLate : Frame :=
  { exRunFrame with rows := exRunFrame.rows ++ [[.str "t4", .num 6 "6", .str "B", .str "TMP", .str "ME"]] }

/-- C201 fails for a series on the second axis: model A on the first axis is restricted to the times of model B, but
model B keeps the time that model A does not have. -/
theorem C201_counterexample :
    aggRun countStat (fun _ _ => .none) exRunLate
      { exRunParams with axis₁ := ⟨[("model", ["A"])], ["ME"], [], [("TMP", ["ME"])]⟩,
                         axis₂ := ⟨[("model", ["B"])], ["ME"], [], [("TMP", ["ME"])]⟩ } =
      .ok [⟨["A", "6", "ME"], some "TMP", .num 2, 2⟩, ⟨["B", "6", "ME"], some "TMP", .num 3, 3⟩] := by
  decide +kernel

/-! ### C202 -/

open Classical in
/-- C202: with columns for the forecast variable and the statistic, and every pair of them listed once, the equalized
data of an axis contains no row more often than the input. -/
theorem C202_once_partial (f : Frame) (indy : String) (fcst : List (String × List String))
    (init : List (String × List String)) (sv : String × List String)
    (fixVars : List String) (fixVals : List (List String)) (vars : List (String × List String)) (out : Frame)
    (I : EqInput f indy true)
    (hvars : addFixVars (seriesVarsForEE (init ++ [sv])) fixVars fixVals = .ok vars)
    (hcols : ∀ v ∈ vars, v.1 ∈ f.cols) (hne : ∀ v ∈ vars, v.2 ≠ []) (hsv : sv.1 ∈ f.cols)
    (hfc : "fcst_var" ∈ f.cols) (hst : "stat_name" ∈ f.cols)
    (hp : (fcst.flatMap (fun p => p.2.map (fun s => (p.1, s)))).Nodup)
    (h : equalizeAxis f indy fcst (init ++ [sv]) fixVars fixVals = .ok out) (r : List Val) :
    out.rows.count r ≤ f.rows.count r := by
  obtain ⟨key, hk⟩ := C01_case_key_exists I
  obtain ⟨out', h1, h2, -⟩ := C54_result f indy fcst init sv fixVars fixVals vars key I hvars hcols hne
    (fun r hr => (hk r hr _).mpr rfl) hsv
  rw [h] at h1
  simp only [Except.ok.injEq] at h1
  subst h1
  rw [h2]
  generalize fcst.flatMap (fun p => p.2.map (fun s => (p.1, s))) = ps at hp
  by_cases hr : r ∈ ps.flatMap (keptRows f sv vars key)
  · obtain ⟨x, hx, hrx⟩ := List.mem_flatMap.mp hr
    have hsel : ∀ y, r ∈ keptRows f sv vars key y → HasCell f r "fcst_var" (.str y.1) ∧
        HasCell f r "stat_name" (.str y.2) := by
      intro y hy
      simp only [keptRows, List.mem_filter, decide_eq_true_eq] at hy
      exact ⟨hy.1.2.2.1 hfc, hy.1.2.2.2 hst⟩
    have : (ps.flatMap (keptRows f sv vars key)).filter (fun y => decide (y = r)) =
        (keptRows f sv vars key x).filter (fun y => decide (y = r)) := by
      rw [List.filter_flatMap, flatMap_single _ x ps hp hx]
      intro y hy hyx
      rw [List.filter_eq_nil_iff]
      intro s hs e
      simp only [decide_eq_true_eq] at e
      subst e
      have a := hsel x hrx
      have b := hsel y hs
      have e1 := hasCell_eq hfc a.1 b.1
      have e2 := hasCell_eq hst a.2 b.2
      simp only [Val.str.injEq] at e1 e2
      exact hyx (Prod.ext e1.symm e2.symm)
    have hc : ∀ l : List (List Val), l.count r = (l.filter (fun y => decide (y = r))).length := by
      intro l
      rw [List.count, List.countP_eq_length_filter]
      congr 1
      apply List.filter_congr
      intro y _
      rw [Bool.eq_iff_iff]
      simp
    rw [hc, this, ← hc]
    apply List.Sublist.count_le
    unfold keptRows
    exact List.filter_sublist.trans List.filter_sublist
  · rw [List.count_eq_zero_of_not_mem hr]
    exact Nat.zero_le _

open Classical in
/-- C202, the extent of the failure: if the input has no column for the statistic, the data of the axis is repeated once
for every listed statistic. -/
theorem C202_without_statistic_column (f : Frame) (indy fv : String) (sts : List String)
    (init : List (String × List String)) (sv : String × List String)
    (fixVars : List String) (fixVals : List (List String)) (vars : List (String × List String))
    (key : List Val → String) (out : Frame) (I : EqInput f indy true)
    (hvars : addFixVars (seriesVarsForEE (init ++ [sv])) fixVars fixVals = .ok vars)
    (hcols : ∀ v ∈ vars, v.1 ∈ f.cols) (hne : ∀ v ∈ vars, v.2 ≠ []) (hsv : sv.1 ∈ f.cols)
    (hkey : ∀ r ∈ f.rows, IsCaseKey f indy true r (key r)) (hst : "stat_name" ∉ f.cols)
    (h : equalizeAxis f indy [(fv, sts)] (init ++ [sv]) fixVars fixVals = .ok out) :
    ∃ kept : List (List Val), kept.Sublist f.rows ∧ out.rows = (List.replicate sts.length kept).flatten ∧
      ∀ r ∈ f.rows, (r ∈ kept ↔
        ((∃ s ∈ sv.2.flatMap ungroup, HasCell f r sv.1 (.str s)) ∧
          ("fcst_var" ∈ f.cols → HasCell f r "fcst_var" (.str fv))) ∧
        ∀ p, Choice vars p → ∃ r' ∈ f.rows, (∃ s ∈ sv.2.flatMap ungroup, HasCell f r' sv.1 (.str s)) ∧
          ("fcst_var" ∈ f.cols → HasCell f r' "fcst_var" (.str fv)) ∧ InSeries f p r' ∧ key r' = key r) := by
  obtain ⟨out', h1, h2, -⟩ := C54_result f indy [(fv, sts)] init sv fixVars fixVals vars key I hvars hcols hne hkey hsv
  rw [h] at h1
  simp only [Except.ok.injEq] at h1
  subst h1
  have hsel : ∀ st r, Selected f sv fv st r ↔ ((∃ s ∈ sv.2.flatMap ungroup, HasCell f r sv.1 (.str s)) ∧
          ("fcst_var" ∈ f.cols → HasCell f r "fcst_var" (.str fv))) := by
    intro st r
    unfold Selected
    constructor
    · rintro ⟨a, b, -⟩; exact ⟨a hsv, b⟩
    · rintro ⟨a, b⟩; exact ⟨fun _ => a, b, fun h => absurd h hst⟩
  have hconst : ∀ st, keptRows f sv vars key (fv, st) = keptRows f sv vars key (fv, "") := by
    intro st
    unfold keptRows
    simp only [hsel]
  refine ⟨keptRows f sv vars key (fv, ""), ?_, ?_, ?_⟩
  · unfold keptRows
    exact List.filter_sublist.trans List.filter_sublist
  · rw [h2]
    simp only [List.flatMap_cons, List.flatMap_nil, List.append_nil]
    clear h2 h
    induction sts with
    | nil => rfl
    | cons a t ih => rw [List.map_cons, List.flatMap_cons, ih, hconst a, List.length_cons, List.replicate_succ,
        List.flatten_cons]
  · intro r hr
    unfold keptRows
    simp only [List.mem_filter, decide_eq_true_eq, hsel, IsCommonCase, hr, true_and]
    refine and_congr_right fun _ => forall_congr' fun p => forall_congr' fun _ => ?_
    constructor
    · rintro ⟨r', ⟨a, b⟩, c, d⟩; exact ⟨r', a, b.1, b.2, c, d⟩
    · rintro ⟨r', a, b, c, d, e⟩; exact ⟨r', ⟨a, b, c⟩, d, e⟩

/-- Data without a column for the statistic. -/
def exNoStat : Frame :=
  { cols := ["fcst_valid_beg", "fcst_lead", "model", "fcst_var"],
    rows := [[.str "t1", .num 6 "6", .str "A", .str "TMP"], [.str "t1", .num 6 "6", .str "B", .str "TMP"]] }

/-- C202 fails: without a column for the statistic two statistics double every count; and a curve that is shown on both
axes is counted twice. -/
theorem C202_counterexample :
    aggRun countStat (fun _ _ => .none) exNoStat
      { exRunParams with axis₁ := ⟨[("model", ["A", "B"])], ["ME", "MAE"], [], [("TMP", ["ME", "MAE"])]⟩ } =
      .ok [⟨["A", "6", "ME"], some "TMP", .num 2, 2⟩, ⟨["A", "6", "MAE"], some "TMP", .num 2, 2⟩,
        ⟨["B", "6", "ME"], some "TMP", .num 2, 2⟩, ⟨["B", "6", "MAE"], some "TMP", .num 2, 2⟩] ∧
    aggRun countStat (fun _ _ => .none) exRunFrame
      { exRunParams with axis₂ := ⟨[("model", ["A"])], ["ME"], [], [("TMP", ["ME"])]⟩ } =
      .ok [⟨["A", "6", "ME"], some "TMP", .num 5, 5⟩, ⟨["B", "6", "ME"], some "TMP", .num 2, 2⟩,
        ⟨["A", "6", "ME"], some "TMP", .num 5, 5⟩] := by
  constructor <;> decide +kernel

/-- The hypotheses of `C202_once_partial` hold for the example. -/
example (r : List Val) (out : Frame)
    (h : equalizeAxis exRunFrame "fcst_lead" [("TMP", ["ME"])] [("model", ["A", "B"])] [] [] = .ok out) :
    out.rows.count r ≤ exRunFrame.rows.count r :=
  C202_once_partial exRunFrame "fcst_lead" [("TMP", ["ME"])] [] ("model", ["A", "B"]) [] [] [("model", ["A", "B"])] out
    exRun_input.input (by decide +kernel) (by decide) (by decide) (by decide) (by decide) (by decide) (by decide) h r

/-! ### C203 -/

theorem groupName_inj {pre : String} {m n : ℕ} (h : pre ++ toString m = pre ++ toString n) : m = n := by
  have h1 := congrArg String.toList h
  simp only [String.toList_append, List.append_cancel_left_eq] at h1
  exact Nat.repr_injective (String.toList_injective h1)

theorem nameGroups_fst (pre : String) (series : List (String × List String)) :
    ((nameGroups pre series).map Prod.fst).Nodup := by
  unfold nameGroups
  rw [List.nodup_iff_injective_getElem]
  intro i j h
  simp only [List.getElem_map, List.getElem_mapIdx] at h
  have := groupName_inj h
  exact Fin.ext (by omega)

/-- C203: every group of a run (a series value with ':') gets a name of its own, also if it is on the other axis, and the
name stands for that group: the n-th group of an axis is called `Group_y1_n` or `Group_y2_n`. -/
theorem C203_group_names (p : AggParams) :
    (p.groups.map Prod.fst).Nodup ∧
    (∀ n v, ((p.axis₁.series.flatMap Prod.snd).filter (fun v => decide (':' ∈ v.toList)))[n]? = some v →
      p.groups.lookup ("Group_y1_" ++ toString (n + 1)) = some v) ∧
    (∀ n v, ((p.axis₂.series.flatMap Prod.snd).filter (fun v => decide (':' ∈ v.toList)))[n]? = some v →
      p.groups.lookup ("Group_y2_" ++ toString (n + 1)) = some v) := by
  have hnd : (p.groups.map Prod.fst).Nodup := by
    unfold AggParams.groups
    rw [List.map_append, List.nodup_append]
    refine ⟨nameGroups_fst _ _, nameGroups_fst _ _, ?_⟩
    intro a ha b hb e
    subst e
    obtain ⟨x, hx, rfl⟩ := List.mem_map.mp ha
    obtain ⟨y, hy, e⟩ := List.mem_map.mp hb
    unfold nameGroups at hx hy
    rw [List.mem_mapIdx] at hx hy
    obtain ⟨i, hi, rfl⟩ := hx
    obtain ⟨j, hj, rfl⟩ := hy
    have := congrArg String.toList e
    simp only [String.toList_append] at this
    have h1 : "Group_y2_".toList = ['G', 'r', 'o', 'u', 'p', '_', 'y', '2', '_'] := by decide
    have h2 : "Group_y1_".toList = ['G', 'r', 'o', 'u', 'p', '_', 'y', '1', '_'] := by decide
    rw [h1, h2] at this
    simp at this
  have hlook : ∀ (l : List (String × String)), (l.map Prod.fst).Nodup → ∀ x ∈ l, l.lookup x.1 = some x.2 := by
    intro l
    induction l with
    | nil => simp
    | cons y l ih =>
      intro hn x hx
      rw [List.map_cons, List.nodup_cons] at hn
      rcases List.mem_cons.mp hx with rfl | hx
      · simp [List.lookup]
      · have : (x.1 == y.1) = false := by
          rw [beq_eq_false_iff_ne]
          exact fun e => hn.1 (e ▸ List.mem_map_of_mem hx)
        rw [List.lookup, this]
        exact ih hn.2 x hx
  have hmem : ∀ (pre : String) (series : List (String × List String)) n v,
      ((series.flatMap Prod.snd).filter (fun v => decide (':' ∈ v.toList)))[n]? = some v →
        (pre ++ toString (n + 1), v) ∈ nameGroups pre series := by
    intro pre series n v h
    unfold nameGroups
    rw [List.mem_mapIdx]
    have hc : (fun v : String => v.toList.contains ':') = fun v => decide (':' ∈ v.toList) := by
      funext v
      rw [List.contains_eq_mem]
    obtain ⟨hn, e⟩ := List.getElem?_eq_some_iff.mp h
    refine ⟨n, by rw [hc]; exact hn, ?_⟩
    simp only [hc, e]
  refine ⟨hnd, ?_, ?_⟩
  · intro n v h
    exact hlook _ hnd _ (List.mem_append_left _ (hmem _ _ n v h))
  · intro n v h
    exact hlook _ hnd _ (List.mem_append_right _ (hmem _ _ n v h))

/-- Two groups on the first axis and one on the second. -/
example : AggParams.groups { exRunParams with
      axis₁ := ⟨[("model", ["A:B", "C", "D:E"])], ["ME"], [], []⟩, axis₂ := ⟨[("model", ["A:C"])], ["ME"], [], []⟩ } =
    [("Group_y1_1", "A:B"), ("Group_y1_2", "D:E"), ("Group_y2_1", "A:C")] := by decide +kernel

/-! ### C204 -/

/-- C204: `event_equal` 'False' switches the equalization off: the table does not depend on the fixed variables, nor, up
to their first key, on the forecast variables listed for the statistics. -/
theorem C204_off_partial (statOf : String → List (List Val) → Except PyErr PyNum)
    (etb : List PyNum → List PyNum → PyNum) (f : Frame) (p : AggParams) (fixed : List (String × List (List String)))
    (h : p.eventEqual = "False" ∨ p.eventEqual = "") :
    aggRun statOf etb f p = aggRun statOf etb f { p with fixed := fixed } ∧
    (∀ out, p.axis₂.series = [] → (aggRun statOf etb f p = .ok out ↔ aggAxis statOf etb f (p.config p.axis₁) = .ok out)) := by
  have ht : truthy (parseBool p.eventEqual) = false := by rcases h with h | h <;> rw [h] <;> rfl
  constructor
  · unfold aggRun
    simp only [ht]
    rfl
  · intro out h2
    unfold aggRun
    rw [ht, h2]
    simp only [Bool.false_eq_true, if_false, List.isEmpty_nil, if_true, bind, Except.bind]
    cases aggAxis statOf etb f (p.config p.axis₁) <;> simp

/-- C204: any other text, whatever it says, switches the equalization on. -/
theorem C204_on (statOf : String → List (List Val) → Except PyErr PyNum)
    (etb : List PyNum → List PyNum → PyNum) (f : Frame) (p : AggParams) (text : String) (h1 : text ≠ "False")
    (h2 : text ≠ "") :
    aggRun statOf etb f { p with eventEqual := text } = aggRun statOf etb f { p with eventEqual := "True" } := by
  have ht : truthy (parseBool text) = true := by
    unfold parseBool
    split
    · rfl
    · simp [truthy, h2]
  unfold aggRun
  simp only [ht]
  rfl

/-- C204 fails (for a text; an unquoted `false` in the parameter file is a boolean): with `event_equal` 'false' the data is equalized (two of the three rows of model A are used), with 'False'
it is not. -/
theorem C204_counterexample :
    aggRun countStat (fun _ _ => .none) exRunFrame { exRunParams with eventEqual := "false" } =
      .ok [⟨["A", "6", "ME"], some "TMP", .num 2, 2⟩, ⟨["B", "6", "ME"], some "TMP", .num 2, 2⟩] ∧
    aggRun countStat (fun _ _ => .none) exRunFrame { exRunParams with eventEqual := "False" } =
      .ok [⟨["A", "6", "ME"], some "TMP", .num 3, 3⟩, ⟨["B", "6", "ME"], some "TMP", .num 2, 2⟩] := by
  constructor <;> decide +kernel

end Metcalcpy.Props
