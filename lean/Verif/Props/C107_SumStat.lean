/-
C107  The summary table holds, for every row, the statistic of that row (partial).
C108  Values joined with ';' are aggregated before the statistics of a summary are computed (false).
C109  A summary with two axes keeps the rows of both (false).
-/
import Verif.Model.SumStat
import Verif.Spec.AggPoints
import Verif.Lemmas.Frame
import Verif.Props.C99_AggPoints

namespace Metcalcpy.Props
open Metcalcpy Spec

/-! ### Cells of frames with distinct columns -/

theorem hasCell_nodup {cols : List String} {rows : List (List Val)} (hn : cols.Nodup) {r : List Val} {name : String}
    {v : Val} : HasCell ⟨cols, rows⟩ r name v ↔ ∃ i : ℕ, cols[i]? = some name ∧ r[i]? = some v := by
  constructor
  · rintro ⟨i, h1, -, h3⟩; exact ⟨i, h1, h3⟩
  · rintro ⟨i, h1, h3⟩
    refine ⟨i, h1, fun j hj hj' => ?_, h3⟩
    obtain ⟨li, ei⟩ := List.getElem?_eq_some_iff.mp h1
    obtain ⟨lj, ej⟩ := List.getElem?_eq_some_iff.mp hj'
    have := (List.nodup_iff_injective_getElem.mp hn) (a₁ := ⟨i, li⟩) (a₂ := ⟨j, lj⟩) (by simp [ei, ej])
    simp at this
    omega

theorem idx_mem {cols : List String} {rows : List (List Val)} {name : String} {i : ℕ}
    (h : (Frame.mk cols rows).idx? name = some i) : cols[i]? = some name := (Frame.idx?_eq_some.mp h).1

theorem idxOf_get {cols : List String} {name : String} (h : name ∈ cols) :
    cols[cols.idxOf name]? = some name := by
  rw [List.getElem?_eq_getElem (List.idxOf_lt_length_of_mem h)]
  simp

theorem nodup_get_inj {cols : List String} (hn : cols.Nodup) {i j : ℕ} {c : String} (h1 : cols[i]? = some c)
    (h2 : cols[j]? = some c) : i = j := by
  obtain ⟨li, ei⟩ := List.getElem?_eq_some_iff.mp h1
  obtain ⟨lj, ej⟩ := List.getElem?_eq_some_iff.mp h2
  have := (List.nodup_iff_injective_getElem.mp hn) (a₁ := ⟨i, li⟩) (a₂ := ⟨j, lj⟩) (by simp [ei, ej])
  simpa using this

/-! ### Dropping columns -/

theorem eraseIdx_get {cols : List String} {r : List Val} {i j : ℕ} {c : String} {v : Val} (hij : i ≠ j)
    (h1 : cols[j]? = some c) (h2 : r[j]? = some v) :
    ∃ k : ℕ, (cols.eraseIdx i)[k]? = some c ∧ (r.eraseIdx i)[k]? = some v := by
  rcases Nat.lt_or_gt_of_ne hij with h | h
  · refine ⟨j - 1, ?_, ?_⟩
    · rw [List.getElem?_eraseIdx, if_neg (by omega), show j - 1 + 1 = j by omega, h1]
    · rw [List.getElem?_eraseIdx, if_neg (by omega), show j - 1 + 1 = j by omega, h2]
  · refine ⟨j, ?_, ?_⟩
    · rw [List.getElem?_eraseIdx, if_pos h, h1]
    · rw [List.getElem?_eraseIdx, if_pos h, h2]

/-- `g` holds the columns `K` of `f`, row by row. -/
def KeepsColumns (f g : Frame) (K : String → Prop) : Prop :=
  g.cols.Nodup ∧ (∀ c, c ∈ g.cols ↔ c ∈ f.cols ∧ K c) ∧
    List.Forall₂ (fun r o => ∀ c v, K c → HasCell f r c v → HasCell g o c v) f.rows g.rows

theorem keeps_refl {f : Frame} (h : f.cols.Nodup) : KeepsColumns f f (fun _ => True) := by
  refine ⟨h, by simp, ?_⟩
  exact List.forall₂_same.mpr (fun r _ c v _ hc => hc)

theorem dropColumn_keeps {f g : Frame} {K : String → Prop} {name : String} (h : KeepsColumns f g K) (hm : name ∈ g.cols) :
    ∃ o, dropColumn g name = .ok o ∧ KeepsColumns f o (fun c => K c ∧ c ≠ name) := by
  obtain ⟨hn, hc, hr⟩ := h
  obtain ⟨i, hi⟩ := Frame.idx?_of_mem hm
  have hi' := (Frame.idx?_eq_some.mp hi).1
  refine ⟨⟨g.cols.eraseIdx i, g.rows.map (fun r => r.eraseIdx i)⟩, by unfold dropColumn; rw [hi], ?_, ?_, ?_⟩
  · exact hn.eraseIdx i
  · intro c
    rw [List.mem_eraseIdx_iff_getElem?]
    constructor
    · rintro ⟨j, hj, hcj⟩
      have hmem : c ∈ g.cols := List.mem_of_getElem? hcj
      refine ⟨((hc c).mp hmem).1, ((hc c).mp hmem).2, ?_⟩
      rintro rfl
      exact hj (nodup_get_inj hn hcj hi')
    · rintro ⟨h1, h2, h3⟩
      obtain ⟨j, hj⟩ := List.mem_iff_getElem?.mp ((hc c).mpr ⟨h1, h2⟩)
      refine ⟨j, ?_, hj⟩
      rintro rfl
      rw [hi'] at hj
      exact h3 (Option.some.inj hj).symm
  · rw [List.forall₂_map_right_iff]
    refine hr.imp ?_
    intro r o ho c v hK hcell
    have := ho c v hK.1 hcell
    rw [show g = ⟨g.cols, g.rows⟩ from rfl, hasCell_nodup hn] at this
    obtain ⟨j, h1, h2⟩ := this
    rw [hasCell_nodup (hn.eraseIdx i)]
    refine eraseIdx_get ?_ h1 h2
    rintro rfl
    rw [hi'] at h1
    exact hK.2 (Option.some.inj h1).symm

theorem keeps_congr {f g : Frame} {K K' : String → Prop} (h : KeepsColumns f g K) (hk : ∀ c, K c ↔ K' c) :
    KeepsColumns f g K' := by
  have : K = K' := funext fun c => propext (hk c)
  rwa [← this]

/-- Dropping the listed columns that `old` has. -/
theorem dropAll_keeps {f : Frame} (old : List String) (hold : ∀ c ∈ old, c ∈ f.cols) : ∀ (names : List String) (g : Frame)
    (K : String → Prop), names.Nodup → KeepsColumns f g K → (∀ c ∈ names, K c) →
    ∃ o, names.foldlM (fun g name => if name ∈ old then dropColumn g name else .ok g) g = .ok o ∧
      KeepsColumns f o (fun c => K c ∧ ¬ (c ∈ names ∧ c ∈ old))
  | [], g, K, _, h, _ => ⟨g, rfl, keeps_congr h (by simp)⟩
  | n :: names, g, K, hn, h, hK => by
    rw [List.nodup_cons] at hn
    by_cases hm : n ∈ old
    · obtain ⟨o, e, ho⟩ := dropColumn_keeps (name := n) h ((h.2.1 n).mpr ⟨hold n hm, hK n (by simp)⟩)
      obtain ⟨o', e', ho'⟩ := dropAll_keeps old hold names o _ hn.2 ho (fun c hc =>
        ⟨hK c (by simp [hc]), by rintro rfl; exact hn.1 hc⟩)
      refine ⟨o', ?_, keeps_congr ho' ?_⟩
      · rw [List.foldlM_cons, if_pos hm, e]; exact e'
      · intro c
        by_cases hcn : c = n
        · subst hcn; simp [hm]
        · simp [hcn]
    · obtain ⟨o', e', ho'⟩ := dropAll_keeps old hold names g K hn.2 h (fun c hc => hK c (by simp [hc]))
      refine ⟨o', ?_, keeps_congr ho' ?_⟩
      · rw [List.foldlM_cons, if_neg hm]; exact e'
      · intro c
        by_cases hcn : c = n
        · subst hcn; simp [hm]
        · simp [hcn]

/-! ### The loop over the rows -/

/-- The rows after the values of the labels in `vals` have been written. -/
def written (i : ℕ) (vals : List (ℕ × Cell)) (rows : List (ℕ × List Val)) : List (ℕ × List Val) :=
  rows.map (fun r => match vals.lookup r.1 with
    | some v => (r.1, r.2.set i (numVal v))
    | none => r)

theorem withStatValue_id {f : IFrame} (h : "stat_value" ∈ f.cols) : withStatValue f = f := by
  obtain ⟨i, hi⟩ := Frame.idx?_of_mem (f := f.frame) (name := "stat_value") h
  unfold withStatValue
  rw [hi]

theorem withStatValue_mem (f : IFrame) : "stat_value" ∈ (withStatValue f).cols := by
  unfold withStatValue
  cases hi : f.frame.idx? "stat_value" with
  | none => simp
  | some i =>
    have := (Frame.idx?_eq_some.mp hi).1
    exact List.mem_of_getElem? this

theorem lookup_none {α : Type} {l : List (ℕ × α)} {k : ℕ} (h : k ∉ l.map Prod.fst) : l.lookup k = none := by
  induction l with
  | nil => rfl
  | cons p l ih =>
    obtain ⟨a, b⟩ := p
    simp only [List.map_cons, List.mem_cons, not_or] at h
    rw [List.lookup_cons, ih h.2]
    have : (k == a) = false := by simpa using h.1
    simp [this]

theorem written_cons (i l : ℕ) (v : Cell) (vals : List (ℕ × Cell)) (rows : List (ℕ × List Val))
    (h : l ∉ vals.map Prod.fst) : written i vals (setAt i l (numVal v) rows) = written i ((l, v) :: vals) rows := by
  unfold written setAt
  rw [List.map_map]
  apply List.map_congr_left
  intro r _
  simp only [Function.comp]
  by_cases hr : r.1 = l
  · have e : (r.1 == l) = true := by simpa using hr
    rw [if_pos e, List.lookup_cons, e]
    simp only
    rw [hr, lookup_none h]
  · have e : (r.1 == l) = false := by simpa using hr
    simp only [e, Bool.false_eq_true, if_false, List.lookup_cons]

/-- The loop on rows whose statistics can be computed: their values are written, then the loop goes on. -/
theorem processLoop_append (statOf : String → List Val → Except PyErr Cell) (cols : List String)
    (rest : List (ℕ × List Val)) : ∀ (pre : List (ℕ × List Val)) (vals : List Cell) (f : IFrame),
    List.Forall₂ (fun r v => rowValue statOf cols r.2 = .ok v) pre vals → (pre.map Prod.fst).Nodup →
    "stat_value" ∈ f.cols →
    processLoop statOf cols (pre ++ rest) f =
      processLoop statOf cols rest ⟨f.cols, written (f.cols.idxOf "stat_value") ((pre.map Prod.fst).zip vals) f.rows⟩
  | [], vals, f, h, _, _ => by
    cases h
    have : written (f.cols.idxOf "stat_value") [] f.rows = f.rows := by
      unfold written; simp
    simp [this]
  | r :: pre, vals, f, h, hn, hs => by
    cases h with
    | cons hr hrest =>
      next v vals =>
      rw [List.map_cons, List.nodup_cons] at hn
      rw [List.cons_append, processLoop, hr]
      simp only [withStatValue_id hs]
      rw [processLoop_append statOf cols rest pre vals
        ⟨f.cols, setAt (f.cols.idxOf "stat_value") r.1 (numVal v) f.rows⟩ hrest hn.2 hs]
      simp only [List.map_cons, List.zip_cons_cons]
      rw [written_cons]
      rw [List.map_fst_zip (by rw [List.length_map, hrest.length_eq])]
      exact hn.1

theorem processLoop_all (statOf : String → List Val → Except PyErr Cell) (cols : List String)
    (rest : List (ℕ × List Val)) (pre : List (ℕ × List Val)) (vals : List Cell) (f : IFrame)
    (h : List.Forall₂ (fun r v => rowValue statOf cols r.2 = .ok v) pre vals) (hn : (pre.map Prod.fst).Nodup)
    (hne : pre ≠ []) :
    processLoop statOf cols (pre ++ rest) f =
      processLoop statOf cols rest ⟨(withStatValue f).cols,
        written ((withStatValue f).cols.idxOf "stat_value") ((pre.map Prod.fst).zip vals) (withStatValue f).rows⟩ := by
  rw [← processLoop_append statOf cols rest pre vals (withStatValue f) h hn (withStatValue_mem f)]
  cases pre with
  | nil => exact absurd rfl hne
  | cons r pre =>
    cases h with
    | cons hr _ => rw [List.cons_append, processLoop, processLoop, withStatValue_id (withStatValue_mem f), hr]

/-! ### The written table -/

theorem special_id {c : SumConfig} {series : List (String × List String)} (f : IFrame)
    (h1 : ∀ v ∈ c.indyVals, ':' ∉ v.toList) (h2 : ∀ p ∈ series, ':' ∉ p.1.toList) :
    aggregateSpecial c series f = .ok f := by
  have : sumAggregates c series = false := by
    unfold sumAggregates
    have e1 : c.indyVals.any hasColon = false := by
      rw [List.any_eq_false]; intro v hv; simpa [hasColon] using h1 v hv
    have e2 : series.any (fun p => hasColon p.1) = false := by
      rw [List.any_eq_false]; intro p hp; simpa [hasColon] using h2 p hp
    rw [e1, e2]; simp
  unfold aggregateSpecial
  rw [this]
  simp

theorem sumFields_nodup {lt : String} {fields : List String} (h : sumFields.lookup lt = some fields) :
    fields.Nodup ∧ "stat_value" ∉ fields ∧ "equalize" ∉ fields := by
  have hm : (lt, fields) ∈ sumFields := by
    revert h
    generalize sumFields = l
    induction l with
    | nil => simp
    | cons p l ih =>
      obtain ⟨a, b⟩ := p
      rw [List.lookup_cons]
      by_cases e : lt = a
      · subst e; simp; intro h; exact Or.inl h.symm
      · have : (lt == a) = false := by simpa using e
        simp only [this]
        intro h; exact List.mem_cons_of_mem _ (ih h)
  have all : ∀ p ∈ sumFields, p.2.Nodup ∧ "stat_value" ∉ p.2 ∧ "equalize" ∉ p.2 := by decide
  exact all _ hm

theorem withStatValue_cols {f : IFrame} (hn : f.cols.Nodup) : (withStatValue f).cols.Nodup ∧
    (∀ n, n ∈ (withStatValue f).cols ↔ n ∈ f.cols ∨ n = "stat_value") ∧
    List.Forall₂ (fun r o => o.1 = r.1 ∧ (r.2.length = f.cols.length → o.2.length = (withStatValue f).cols.length) ∧
      ∀ n v, HasCell ⟨f.cols, []⟩ r.2 n v → HasCell ⟨(withStatValue f).cols, []⟩ o.2 n v) f.rows (withStatValue f).rows := by
  unfold withStatValue
  cases hi : f.frame.idx? "stat_value" with
  | some i =>
    have hm : "stat_value" ∈ f.cols := List.mem_of_getElem? (Frame.idx?_eq_some.mp hi).1
    simp only
    refine ⟨hn, fun n => ⟨Or.inl, ?_⟩, List.forall₂_same.mpr (fun r _ => ⟨rfl, fun h => h, fun n v h => h⟩)⟩
    rintro (h | rfl)
    · exact h
    · exact hm
  | none =>
    have hm : "stat_value" ∉ f.cols := Frame.idx?_eq_none.mp hi
    have hn' : (f.cols ++ ["stat_value"]).Nodup := by
      rw [List.nodup_append]
      exact ⟨hn, by simp, by rintro a ha b hb; simp at hb; subst hb; rintro rfl; exact hm ha⟩
    simp only
    refine ⟨hn', by simp, ?_⟩
    rw [List.forall₂_map_right_iff]
    refine List.forall₂_same.mpr (fun r _ => ⟨rfl, fun h => by simp [h], fun n v h => ?_⟩)
    rw [hasCell_nodup hn] at h
    rw [hasCell_nodup hn']
    obtain ⟨i, h1, h2⟩ := h
    refine ⟨i, ?_, ?_⟩
    · rw [List.getElem?_append_left (List.getElem?_eq_some_iff.mp h1).1, h1]
    · rw [List.getElem?_append_left (List.getElem?_eq_some_iff.mp h2).1, h2]

theorem forall₂_comp_mem {α β γ : Type*} {R : α → β → Prop} {S : β → γ → Prop} {a : List α} {b : List β} {c : List γ}
    (h : List.Forall₂ R a b) (h' : List.Forall₂ S b c) :
    List.Forall₂ (fun x z => x ∈ a ∧ ∃ y, R x y ∧ S y z) a c := by
  induction h generalizing c with
  | nil => cases h'; exact .nil
  | cons hr _ ih =>
    cases h' with
    | cons hs hrest =>
      refine .cons ⟨by simp, _, hr, hs⟩ ((ih hrest).imp ?_)
      rintro x z ⟨hx, y, h1, h2⟩
      exact ⟨by simp [hx], y, h1, h2⟩

/-- The table written when the statistics of the first rows `pre` are computed and the others (if any) start with one that
has an unknown statistic. -/
theorem sumStat_written (statOf : String → List Val → Except PyErr Cell) (c : SumConfig) (f : IFrame)
    (fields : List String) (s1 s2 : List (String × List String)) (pre rest : List (ℕ × List Val)) (vals : List Cell)
    (hf : sumFields.lookup c.lineType = some fields) (hs1 : c.series1 = some s1) (hs2 : c.series2 = some s2)
    (h0 : ∀ v ∈ c.indyVals, ':' ∉ v.toList) (h1 : ∀ p ∈ s1, ':' ∉ p.1.toList) (h2 : ∀ p ∈ s2, ':' ∉ p.1.toList)
    (hn : (f.cols.map (sumRename c.lineType)).Nodup) (hw : ∀ r ∈ f.rows, r.2.length = f.cols.length)
    (hl : (f.rows.map Prod.fst).Nodup) (hrows : f.rows = pre ++ rest) (hpre : pre ≠ [])
    (hv : List.Forall₂ (fun r v => rowValue statOf (f.cols.map (sumRename c.lineType)) r.2 = .ok v) pre vals)
    (hrest : ∀ r rs, rest = r :: rs → rowValue statOf (f.cols.map (sumRename c.lineType)) r.2 = .error .keyError) :
    ∃ out, sumStat statOf c f = .ok out ∧ out.cols.Nodup ∧
      (∀ n, n ∈ out.cols ↔ (n ∈ f.cols.map (sumRename c.lineType) ∨ n = "stat_value") ∧ n ∉ fields ∧ n ≠ "equalize") ∧
      List.Forall₂ (fun r o =>
        (∀ n v, n ∈ out.cols → n ≠ "stat_value" → HasCell ⟨f.cols.map (sumRename c.lineType), []⟩ r.2 n v →
          HasCell out o n v) ∧
        (match ((pre.map Prod.fst).zip vals).lookup r.1 with
          | some v => HasCell out o "stat_value" (numVal v)
          | none => ∀ v, HasCell ⟨f.cols.map (sumRename c.lineType), []⟩ r.2 "stat_value" v →
              HasCell out o "stat_value" v)) f.rows out.rows := by
  obtain ⟨fn, fs, fe⟩ := sumFields_nodup hf
  set cols0 := f.cols.map (sumRename c.lineType) with hcols0
  set f0 : IFrame := ⟨cols0, f.rows⟩ with hf0
  set F : IFrame := ⟨(withStatValue f0).cols, written ((withStatValue f0).cols.idxOf "stat_value")
    ((pre.map Prod.fst).zip vals) (withStatValue f0).rows⟩ with hF
  have hpn : (pre.map Prod.fst).Nodup := by
    rw [hrows, List.map_append] at hl
    exact (List.nodup_append.mp hl).1
  have hsteps : ∃ e, sumSteps statOf c f0 = (F, e) ∧ (e = none ∨ e = some .keyError) := by
    have hne : f0.rows.isEmpty = false := by
      simp only [hf0, hrows]
      cases pre with
      | nil => exact absurd rfl hpre
      | cons r pre => rfl
    unfold sumSteps
    rw [hne, hs1, hs2]
    simp only [special_id f0 h0 h1, special_id f0 h0 h2, Bool.false_eq_true, if_false]
    unfold processRows
    have : f0.rows = pre ++ rest := hrows
    rw [this, processLoop_all statOf f0.cols rest pre vals f0 hv hpn hpre]
    cases rest with
    | nil => exact ⟨none, rfl, Or.inl rfl⟩
    | cons r rs =>
      refine ⟨some .keyError, ?_, Or.inr rfl⟩
      rw [processLoop, hrest r rs rfl]
  obtain ⟨e, hst, he⟩ := hsteps
  obtain ⟨wn, wm, wr⟩ := withStatValue_cols (f := f0) hn
  obtain ⟨o1, e1, k1⟩ := dropAll_keeps (f := F.frame) cols0 (fun n hm => (wm n).mpr (Or.inl hm)) fields F.frame
    (fun _ => True) fn (keeps_refl wn) (fun _ _ => trivial)
  have hfin : ∃ out, (if "equalize" ∈ o1.cols then dropColumn o1 "equalize" else .ok o1) = .ok out ∧
      KeepsColumns F.frame out (fun n => n ∉ fields ∧ n ≠ "equalize") := by
    have hk : ∀ n, n ∈ F.frame.cols → ((True ∧ ¬ (n ∈ fields ∧ n ∈ cols0)) ↔ n ∉ fields) := by
      intro n hm
      rcases (wm n).mp hm with h | h
      · simp only [true_and, not_and]
        exact ⟨fun g hn => g hn h, fun g hn => absurd hn g⟩
      · subst h; simp [fs]
    have k2 : KeepsColumns F.frame o1 (fun n => n ∉ fields) := by
      refine ⟨k1.1, fun n => ?_, ?_⟩
      · rw [k1.2.1 n]
        constructor
        · rintro ⟨a, b⟩; exact ⟨a, (hk n a).mp b⟩
        · rintro ⟨a, b⟩; exact ⟨a, (hk n a).mpr b⟩
      · refine k1.2.2.imp ?_
        intro r o h n v hnf hc
        have hm : n ∈ F.frame.cols := by
          obtain ⟨i, hi, -⟩ := hc
          exact List.mem_of_getElem? hi
        exact h n v ((hk n hm).mpr hnf) hc
    by_cases hq : "equalize" ∈ o1.cols
    · obtain ⟨o, eo, ko⟩ := dropColumn_keeps (name := "equalize") k2 hq
      exact ⟨o, by rw [if_pos hq]; exact eo, ko⟩
    · refine ⟨o1, by rw [if_neg hq], k2.1, fun n => ?_, ?_⟩
      · rw [k2.2.1 n]
        constructor
        · rintro ⟨a, b⟩
          refine ⟨a, b, ?_⟩
          rintro rfl
          exact hq ((k2.2.1 _).mpr ⟨a, b⟩)
        · rintro ⟨a, b, -⟩; exact ⟨a, b⟩
      · exact k2.2.2.imp (fun r o h n v hK hc => h n v hK.1 hc)
  obtain ⟨out, eo, ko⟩ := hfin
  refine ⟨out, ?_, ko.1, ?_, ?_⟩
  · unfold sumStat
    rw [hf]
    simp only [← hcols0, ← hf0, hst]
    rcases he with rfl | rfl
    · simp only [bind, Except.bind]; rw [e1]; exact eo
    · simp only [bind, Except.bind]; rw [e1]; exact eo
  · intro n
    rw [ko.2.1 n]
    have := wm n
    constructor
    · rintro ⟨a, b⟩; exact ⟨this.mp a, b⟩
    · rintro ⟨a, b⟩; exact ⟨this.mpr a, b⟩
  · have hmap : F.frame.rows = (withStatValue f0).rows.map (fun r =>
        (match ((pre.map Prod.fst).zip vals).lookup r.1 with
          | some v => (r.1, r.2.set ((withStatValue f0).cols.idxOf "stat_value") (numVal v))
          | none => r).2) := by
      simp only [hF, IFrame.frame, written, List.map_map]; rfl
    have kr := ko.2.2
    rw [hmap, List.forall₂_map_left_iff] at kr
    refine (forall₂_comp_mem wr kr).imp ?_
    rintro r o ⟨hr, y, ⟨hy1, hy2, hy3⟩, hy4⟩
    have hy2' := hy2 (by rw [hw r hr]; simp [hf0, hcols0])
    set i := (withStatValue f0).cols.idxOf "stat_value" with hi
    have hi' : (withStatValue f0).cols[i]? = some "stat_value" := idxOf_get (withStatValue_mem f0)
    have hil : i < y.2.length := by rw [hy2']; exact (List.getElem?_eq_some_iff.mp hi').1
    have cellF : ∀ x n v, HasCell F.frame x n v ↔ ∃ i : ℕ, (withStatValue f0).cols[i]? = some n ∧ x[i]? = some v :=
      fun x n v => hasCell_nodup wn
    rw [hy1] at hy4
    constructor
    · intro n v hno hns hc
      have hK := ((ko.2.1 n).mp hno).2
      refine hy4 n v hK ?_
      have hc' := hy3 n v hc
      rw [hasCell_nodup wn] at hc'
      obtain ⟨j, j1, j2⟩ := hc'
      rw [cellF]
      refine ⟨j, j1, ?_⟩
      cases ((pre.map Prod.fst).zip vals).lookup r.1 with
      | none => exact j2
      | some x =>
        simp only
        rw [List.getElem?_set_ne, j2]
        rintro rfl
        rw [hi'] at j1
        exact hns (Option.some.inj j1).symm
    · have hK : "stat_value" ∉ fields ∧ "stat_value" ≠ "equalize" := ⟨fs, by decide⟩
      cases hlk : ((pre.map Prod.fst).zip vals).lookup r.1 with
      | none =>
        rw [hlk] at hy4
        simp only
        intro v hc
        refine hy4 _ v hK ?_
        have hc' := hy3 _ v hc
        rw [hasCell_nodup wn] at hc'
        rw [cellF]; exact hc'
      | some x =>
        rw [hlk] at hy4
        simp only
        refine hy4 _ _ hK ?_
        rw [cellF]
        exact ⟨i, hi', by simp [hil]⟩

/-- The fields of every line type, which are removed once the statistics are known. -/
def removedFields : List (String × List String) :=
  [("ctc", ["fn_oy", "fn_on", "fy_oy", "fy_on", "total"]),
   ("ecnt", ["crps", "rmse", "rmse_oerr", "total"]),
   ("grad", ["egbar", "fgbar", "mgbar", "ogbar", "total"]),
   ("nbrcnt", ["afss", "f_rate", "fbs", "fss", "o_rate", "total", "ufss"]),
   ("nbrctc", ["fn_oy", "fn_on", "fy_oy", "fy_on", "total"]),
   ("pct", ["on_i", "oy_i", "thresh_i", "total"]),
   ("rps", ["rps", "rps_comp", "rpss", "total"]),
   ("sal1l2", ["fbar", "ffbar", "fobar", "obar", "oobar", "total"]),
   ("sl1l2", ["fbar", "ffbar", "fobar", "obar", "oobar", "total"]),
   ("val1l2", ["total", "ufabar", "uoabar", "uvffabar", "uvfoabar", "uvooabar", "vfabar", "voabar"]),
   ("vl1l2", ["f_speed_bar", "o_speed_bar", "total", "ufbar", "uobar", "uvffbar", "uvfobar", "uvoobar", "vfbar", "vobar"])]

/-- The columns of anomalies and the names under which their statistics read them. -/
def anomalyNames : List (String × String) :=
  [("fabar", "fbar"), ("oabar", "obar"), ("foabar", "fobar"), ("ffabar", "ffbar"), ("ooabar", "oobar")]

theorem removedFields_lookup {t : String} {fields : List String} (h : (t, fields) ∈ removedFields) :
    ∃ fields', sumFields.lookup t = some fields' ∧ ∀ n, n ∈ fields' ↔ n ∈ fields := by
  have : ∀ p ∈ removedFields, ∃ fields', sumFields.lookup p.1 = some fields' ∧
      (∀ n ∈ fields', n ∈ p.2) ∧ ∀ n ∈ p.2, n ∈ fields' := by
    have h0 : ∀ p ∈ removedFields, (sumFields.lookup p.1).isSome ∧
      (∀ n ∈ (sumFields.lookup p.1).getD [], n ∈ p.2) ∧ ∀ n ∈ p.2, n ∈ (sumFields.lookup p.1).getD [] := by decide +kernel
    intro p hp
    obtain ⟨h1, h2⟩ := h0 p hp
    obtain ⟨f, hf⟩ := Option.isSome_iff_exists.mp h1
    rw [hf] at h2
    exact ⟨f, hf, h2⟩
  obtain ⟨f, h1, h2, h3⟩ := this _ h
  exact ⟨f, h1, fun n => ⟨h2 n, h3 n⟩⟩

theorem sumRename_eq (n : String) : sumRename "sal1l2" n = (anomalyNames.lookup n).getD n := by
  unfold sumRename anomalyNames
  simp only [if_true, List.lookup]
  split <;> simp_all [beq_iff_eq]
  rename_i h1 h2 h3 h4 h5
  simp [beq_eq_false_iff_ne.mpr h1, beq_eq_false_iff_ne.mpr h2, beq_eq_false_iff_ne.mpr h3, beq_eq_false_iff_ne.mpr h4,
    beq_eq_false_iff_ne.mpr h5]

theorem sumRename_id {t : String} {cols : List String}
    (h : t = "sal1l2" → ∀ n ∈ cols, n ∉ anomalyNames.map Prod.fst) : cols.map (sumRename t) = cols := by
  conv_rhs => rw [← List.map_id cols]
  apply List.map_congr_left
  intro n hn
  by_cases ht : t = "sal1l2"
  · subst ht
    rw [sumRename_eq, List.lookup_eq_none_iff.mpr]
    · rfl
    · intro p hp
      have := h rfl n hn
      rw [bne_iff_ne]
      intro e
      exact this (List.mem_map.mpr ⟨p, hp, e.symm⟩)
  · simp [sumRename, ht]

/-- C107: a table of anomalies is treated as the table with the names of full values. -/
theorem C107_anomalies (statOf : String → List Val → Except PyErr Cell) (c : SumConfig) (f : IFrame) (h : c.lineType = "sal1l2") :
    sumStat statOf c f = sumStat statOf c ⟨f.cols.map fun n => (anomalyNames.lookup n).getD n, f.rows⟩ := by
  have he : f.cols.map (sumRename c.lineType) =
      (f.cols.map fun n => (anomalyNames.lookup n).getD n).map (sumRename c.lineType) := by
    rw [List.map_map]
    apply List.map_congr_left
    intro n _
    simp only [h, Function.comp, sumRename_eq]
    by_cases hn : n ∈ anomalyNames.map Prod.fst
    · have : ∀ n ∈ anomalyNames.map Prod.fst, (anomalyNames.lookup n).getD n =
        (anomalyNames.lookup ((anomalyNames.lookup n).getD n)).getD ((anomalyNames.lookup n).getD n) := by decide +kernel
      exact this n hn
    · have : anomalyNames.lookup n = none := by
        rw [List.lookup_eq_none_iff]
        intro p hp
        rw [bne_iff_ne]
        intro e
        exact hn (List.mem_map.mpr ⟨p, hp, e.symm⟩)
      simp [this]
  unfold sumStat
  simp only [he]
  cases hf : sumFields.lookup c.lineType with
  | some fields => rfl
  | none => rw [h] at hf; exact absurd hf (by decide +kernel)

/-- C107: a table of any other line type is written as it is, but for the column `equalize`. -/
theorem C107_other_line_types (statOf : String → List Val → Except PyErr Cell) (c : SumConfig) (f : IFrame)
    (h : c.lineType ∉ removedFields.map Prod.fst) (hn : f.cols.Nodup) :
    ∃ out, sumStat statOf c f = .ok out ∧ out.cols = f.cols.filter (· ≠ "equalize") ∧
      ("equalize" ∉ f.cols → out.rows = f.rows.map Prod.snd) ∧
      ∀ i, f.cols[i]? = some "equalize" → out.rows = f.rows.map fun r => r.2.eraseIdx i := by
  have hf : sumFields.lookup c.lineType = none := by
    rw [List.lookup_eq_none_iff]
    intro p hp
    rw [bne_iff_ne]
    intro e
    apply h
    rw [e]
    have : ∀ p ∈ sumFields, p.1 ∈ removedFields.map Prod.fst := by decide +kernel
    exact this p hp
  unfold sumStat
  simp only [hf]
  by_cases hm : "equalize" ∈ f.cols
  · rw [if_pos hm]
    obtain ⟨k, hk⟩ := Frame.idx?_of_mem (f := f.frame) hm
    have hk2 : f.cols[k]? = some "equalize" := (Frame.idx?_eq_some.mp hk).1
    have hpos : ∀ i : ℕ, f.cols[i]? = some "equalize" → i = k := by
      intro i hi
      obtain ⟨h1, h1'⟩ := List.getElem?_eq_some_iff.mp hi
      obtain ⟨h2, h2'⟩ := List.getElem?_eq_some_iff.mp hk2
      exact (List.Nodup.getElem_inj_iff hn).mp (h1'.trans h2'.symm)
    refine ⟨_, by unfold dropColumn; rw [hk], ?_, fun h => absurd hm h, ?_⟩
    · obtain ⟨h2, h2'⟩ := List.getElem?_eq_some_iff.mp hk2
      show f.cols.eraseIdx k = _
      rw [← hn.erase_getElem k h2, h2', hn.erase_eq_filter]
      congr 1
      funext x
      by_cases hx : x = "equalize" <;> simp [hx]
    · intro i hi
      rw [hpos i hi]
      simp [IFrame.frame, List.map_map, Function.comp_def]
  · rw [if_neg hm]
    refine ⟨_, rfl, ?_, fun _ => rfl, fun i hi => absurd (List.mem_of_getElem? hi) hm⟩
    rw [List.filter_eq_self.mpr]
    · rfl
    · intro n hn
      rw [decide_eq_true_iff]
      rintro rfl
      exact hm hn

/-- C107 (partial): when the statistics of all rows are known, the table written has one row per input row, in order:
the column `stat_value` holds the statistic of that row, and the other columns are unchanged, except that the fields of
the line type are removed.  (Independent values without ':'; event equalization off or already done.) -/
theorem C107_rows_partial (statOf : String → List Val → Except PyErr Cell) (c : SumConfig) (f : IFrame)
    (fields : List String) (s1 s2 : List (String × List String))
    (hf : (c.lineType, fields) ∈ removedFields) (hlt : c.lineType = "sal1l2" → ∀ n ∈ f.cols, n ∉ anomalyNames.map Prod.fst)
    (hs1 : c.series1 = some s1) (hs2 : c.series2 = some s2)
    (h0 : ∀ v ∈ c.indyVals, ':' ∉ v.toList) (h1 : ∀ p ∈ s1, ':' ∉ p.1.toList) (h2 : ∀ p ∈ s2, ':' ∉ p.1.toList)
    (hn : f.cols.Nodup) (hw : ∀ r ∈ f.rows, r.2.length = f.cols.length) (hne : f.rows ≠ [])
    (hl : (f.rows.map Prod.fst).Nodup)
    (hv : ∀ r ∈ f.rows, ∃ s v, HasCell f.frame r.2 "stat_name" (.str s) ∧ statOf (lower s) r.2 = .ok v) :
    ∃ out, sumStat statOf c f = .ok out ∧ out.cols.Nodup ∧
      (∀ n, n ∈ out.cols ↔ (n ∈ f.cols ∨ n = "stat_value") ∧ n ∉ fields ∧ n ≠ "equalize") ∧
      List.Forall₂ (fun r o =>
        (∀ s v, HasCell f.frame r.2 "stat_name" (.str s) → statOf (lower s) r.2 = .ok v →
          HasCell out o "stat_value" (match v with | some q => .num q "" | none => .null)) ∧
        (∀ n v, n ∈ out.cols → n ≠ "stat_value" → HasCell f.frame r.2 n v → HasCell out o n v)) f.rows out.rows := by
  have hren := sumRename_id hlt
  obtain ⟨fields', hf', hff⟩ := removedFields_lookup hf
  have hrv : ∀ r ∈ f.rows, ∀ s v, HasCell f.frame r.2 "stat_name" (.str s) → statOf (lower s) r.2 = .ok v →
      rowValue statOf f.cols r.2 = .ok v := by
    intro r hr s v h1 h2
    have hm : "stat_name" ∈ f.cols := by
      obtain ⟨i, hi, -⟩ := h1
      exact List.mem_of_getElem? hi
    obtain ⟨k, hk⟩ := Frame.idx?_of_mem (f := f.frame) hm
    have hk' : (Frame.mk f.cols []).idx? "stat_name" = some k := hk
    unfold rowValue Frame.col
    rw [hk']
    simp only [bind, Except.bind]
    rw [hasCell_unique hk h1]
    exact h2
  have hvals : ∃ vals, List.Forall₂ (fun r v => rowValue statOf f.cols r.2 = .ok v) f.rows vals := by
    have : ∀ l : List (ℕ × List Val), (∀ r ∈ l, r ∈ f.rows) →
        ∃ vals, List.Forall₂ (fun r v => rowValue statOf f.cols r.2 = .ok v) l vals := by
      intro l
      induction l with
      | nil => intro _; exact ⟨[], .nil⟩
      | cons r l ih =>
        intro hmem
        obtain ⟨vals, h⟩ := ih (fun x hx => hmem x (by simp [hx]))
        obtain ⟨s, v, a, b⟩ := hv r (hmem r (by simp))
        exact ⟨v :: vals, .cons (hrv r (hmem r (by simp)) s v a b) h⟩
    exact this f.rows (fun r h => h)
  obtain ⟨vals, hvals⟩ := hvals
  obtain ⟨out, e, n1, n2, n3⟩ := sumStat_written statOf c f fields' s1 s2 f.rows [] vals hf' hs1 hs2 h0 h1 h2
    (by rw [hren]; exact hn) hw hl (by simp) hne (by rw [hren]; exact hvals) (by simp)
  rw [hren] at n2 n3
  refine ⟨out, e, n1, fun n => by rw [n2 n, hff n], ?_⟩
  have hlook : ∀ (l : List (ℕ × List Val)) (vs : List Cell), (l.map Prod.fst).Nodup →
      List.Forall₂ (fun r v => rowValue statOf f.cols r.2 = .ok v) l vs → ∀ r ∈ l, ∃ v,
      ((l.map Prod.fst).zip vs).lookup r.1 = some v ∧ rowValue statOf f.cols r.2 = .ok v := by
    intro l vs hnd hfa
    induction hfa with
    | nil => simp
    | @cons a v l vs ha _ ih =>
      rw [List.map_cons, List.nodup_cons] at hnd
      intro r hr
      rcases List.mem_cons.mp hr with rfl | hr
      · exact ⟨v, by simp, ha⟩
      · obtain ⟨w, h1, h2⟩ := ih hnd.2 r hr
        refine ⟨w, ?_, h2⟩
        have : (r.1 == a.1) = false := by
          have : r.1 ≠ a.1 := by
            intro e; apply hnd.1; rw [← e]; exact List.mem_map_of_mem hr
          simpa using this
        rw [List.map_cons, List.zip_cons_cons, List.lookup_cons, this]
        exact h1
  refine (forall₂_comp_mem (List.forall₂_same.mpr (fun r _ => rfl) : List.Forall₂ (· = ·) f.rows f.rows) n3).imp ?_
  rintro r o ⟨hr, y, rfl, a, b⟩
  obtain ⟨w, l1, l2⟩ := hlook f.rows vals hl hvals r hr
  rw [l1] at b
  refine ⟨fun s v hc hs => ?_, a⟩
  have := hrv r hr s v hc hs
  rw [l2] at this
  obtain rfl : w = v := by simpa using this
  cases w <;> exact b

/-- C107: what happens when a row names an unknown statistic: the run ends without error, the rows before it have their
statistics, this row and all later ones keep the `stat_value` of the input. -/
theorem C107_unknown_actual (statOf : String → List Val → Except PyErr Cell) (c : SumConfig) (f : IFrame)
    (fields : List String) (s1 s2 : List (String × List String)) (pre post : List (ℕ × List Val)) (bad : ℕ × List Val)
    (hf : (c.lineType, fields) ∈ removedFields) (hlt : c.lineType = "sal1l2" → ∀ n ∈ f.cols, n ∉ anomalyNames.map Prod.fst)
    (hs1 : c.series1 = some s1) (hs2 : c.series2 = some s2)
    (h0 : ∀ v ∈ c.indyVals, ':' ∉ v.toList) (h1 : ∀ p ∈ s1, ':' ∉ p.1.toList) (h2 : ∀ p ∈ s2, ':' ∉ p.1.toList)
    (hn : f.cols.Nodup) (hw : ∀ r ∈ f.rows, r.2.length = f.cols.length)
    (hl : (f.rows.map Prod.fst).Nodup) (hrows : f.rows = pre ++ bad :: post) (hpre : pre ≠ [])
    (hv : ∀ r ∈ pre, ∃ s v, HasCell f.frame r.2 "stat_name" (.str s) ∧ statOf (lower s) r.2 = .ok v)
    (hbad : ∃ s, HasCell f.frame bad.2 "stat_name" (.str s) ∧ statOf (lower s) bad.2 = .error .keyError) :
    ∃ out, sumStat statOf c f = .ok out ∧
      List.Forall₂ (fun r o => ∀ s v, HasCell f.frame r.2 "stat_name" (.str s) → statOf (lower s) r.2 = .ok v →
          HasCell out o "stat_value" (match v with | some q => .num q "" | none => .null))
        pre (out.rows.take pre.length) ∧
      List.Forall₂ (fun r o => ∀ v, HasCell f.frame r.2 "stat_value" v → HasCell out o "stat_value" v)
        (bad :: post) (out.rows.drop pre.length) := by
  have hren := sumRename_id hlt
  obtain ⟨fields', hf', hff⟩ := removedFields_lookup hf
  have hcell : ∀ (r : ℕ × List Val) s, HasCell f.frame r.2 "stat_name" (.str s) →
      rowValue statOf f.cols r.2 = statOf (lower s) r.2 := by
    intro r s h1
    have hm : "stat_name" ∈ f.cols := by
      obtain ⟨i, hi, -⟩ := h1
      exact List.mem_of_getElem? hi
    obtain ⟨k, hk⟩ := Frame.idx?_of_mem (f := f.frame) hm
    have hk' : (Frame.mk f.cols []).idx? "stat_name" = some k := hk
    unfold rowValue Frame.col
    rw [hk']
    simp only [bind, Except.bind]
    rw [hasCell_unique hk h1]
  have hvals : ∃ vals, List.Forall₂ (fun r v => rowValue statOf f.cols r.2 = .ok v) pre vals := by
    have : ∀ l : List (ℕ × List Val), (∀ r ∈ l, r ∈ pre) →
        ∃ vals, List.Forall₂ (fun r v => rowValue statOf f.cols r.2 = .ok v) l vals := by
      intro l
      induction l with
      | nil => intro _; exact ⟨[], .nil⟩
      | cons r l ih =>
        intro hmem
        obtain ⟨vals, h⟩ := ih (fun x hx => hmem x (by simp [hx]))
        obtain ⟨s, v, a, b⟩ := hv r (hmem r (by simp))
        exact ⟨v :: vals, .cons ((hcell r s a).trans b) h⟩
    exact this pre (fun r h => h)
  obtain ⟨vals, hvals⟩ := hvals
  obtain ⟨out, e, n1, n2, n3⟩ := sumStat_written statOf c f fields' s1 s2 pre (bad :: post) vals hf' hs1 hs2 h0 h1 h2
    (by rw [hren]; exact hn) hw hl hrows hpre (by rw [hren]; exact hvals) (by
      intro r rs hr
      obtain ⟨rfl, rfl⟩ := List.cons.inj hr
      obtain ⟨s, a, b⟩ := hbad
      rw [hren, hcell bad s a, b])
  rw [hren] at n3
  refine ⟨out, e, ?_⟩
  rw [hrows] at n3 hl
  rw [List.map_append] at hl
  obtain ⟨hl1, hl2, hl3⟩ := List.nodup_append.mp hl
  have hlk : ∀ r ∈ bad :: post, ((pre.map Prod.fst).zip vals).lookup r.1 = none := by
    intro r hr
    apply lookup_none
    rw [List.map_fst_zip (by rw [List.length_map, hvals.length_eq])]
    intro hm
    exact hl3 _ hm _ (List.mem_map_of_mem hr) rfl
  have hlook : ∀ (l : List (ℕ × List Val)) (vs : List Cell), (l.map Prod.fst).Nodup →
      List.Forall₂ (fun r v => rowValue statOf f.cols r.2 = .ok v) l vs → ∀ r ∈ l, ∃ v,
      ((l.map Prod.fst).zip vs).lookup r.1 = some v ∧ rowValue statOf f.cols r.2 = .ok v := by
    intro l vs hnd hfa
    induction hfa with
    | nil => simp
    | @cons a v l vs ha _ ih =>
      rw [List.map_cons, List.nodup_cons] at hnd
      intro r hr
      rcases List.mem_cons.mp hr with rfl | hr
      · exact ⟨v, by simp, ha⟩
      · obtain ⟨w, h1, h2⟩ := ih hnd.2 r hr
        refine ⟨w, ?_, h2⟩
        have : (r.1 == a.1) = false := by
          have : r.1 ≠ a.1 := by
            intro e; apply hnd.1; rw [← e]; exact List.mem_map_of_mem hr
          simpa using this
        rw [List.map_cons, List.zip_cons_cons, List.lookup_cons, this]
        exact h1
  have n4 := List.forall₂_take pre.length n3
  have n5 := List.forall₂_drop pre.length n3
  rw [List.take_left' rfl] at n4
  rw [List.drop_left' rfl] at n5
  constructor
  · refine (forall₂_comp_mem (List.forall₂_same.mpr (fun r _ => rfl) : List.Forall₂ (· = ·) pre pre) n4).imp ?_
    rintro r o ⟨hr, y, rfl, -, b⟩ s v hc hs
    obtain ⟨w, l1, l2⟩ := hlook pre vals hl1 hvals r hr
    rw [l1] at b
    have := (hcell r s hc).trans hs
    rw [l2] at this
    obtain rfl : w = v := by simpa using this
    cases w <;> exact b
  · refine (forall₂_comp_mem (List.forall₂_same.mpr (fun r _ => rfl) :
      List.Forall₂ (· = ·) (bad :: post) (bad :: post)) n5).imp ?_
    rintro r o ⟨hr, y, rfl, -, b⟩
    rw [hlk r hr] at b
    exact b

/-! ### Examples -/

/-- A statistic that is the column `x`. -/
def readX (s : String) (r : List Val) : Except PyErr Cell :=
  if s = "me" then (match cellAt r 2 with | .num q _ => .ok (some q) | _ => .ok none) else .error .keyError
def sumRow (t s : String) (x : ℚ) : List Val := [.str t, .str s, .num x "", .num 99 "99"]
def sumFrame (rows : List (List Val)) : IFrame :=
  ⟨["vx_mask", "stat_name", "fbar", "stat_value"], rows.zipIdx.map (fun p => (p.2, p.1))⟩
def sumCfg (s1 s2 : List (String × List String)) (indy : List String) : SumConfig :=
  ⟨"sl1l2", "fcst_valid_beg", indy, some s1, some s2⟩

/-- A run that meets the hypotheses of `C107_rows_partial`. -/
example : sumStat readX (sumCfg [("vx_mask", ["A", "B"])] [] ["12"])
    (sumFrame [sumRow "A" "ME" 1, sumRow "B" "ME" 2, sumRow "B" "me" 3]) =
    .ok ⟨["vx_mask", "stat_name", "stat_value"],
      [[.str "A", .str "ME", .num 1 ""], [.str "B", .str "ME", .num 2 ""], [.str "B", .str "me", .num 3 ""]]⟩ := by
  decide +kernel

/-- C107 fails when a row names an unknown statistic: a later row with a known one keeps its old value. -/
theorem C107_counterexample : ∃ (c : SumConfig) (f : IFrame) (out : Frame) (r : ℕ × List Val) (o : List Val),
    sumStat readX c f = .ok out ∧ f.rows[2]? = some r ∧ out.rows[2]? = some o ∧
    readX "me" r.2 = .ok (some 3) ∧ HasCell f.frame r.2 "stat_name" (.str "ME") ∧
    HasCell out o "stat_value" (.num 99 "99") :=
  ⟨sumCfg [("vx_mask", ["A", "B"])] [] ["12"], sumFrame [sumRow "A" "ME" 1, sumRow "B" "XX" 2, sumRow "B" "ME" 3],
    ⟨["vx_mask", "stat_name", "stat_value"],
      [[.str "A", .str "ME", .num 1 ""], [.str "B", .str "XX", .num 99 "99"], [.str "B", .str "ME", .num 99 "99"]]⟩,
    (2, sumRow "B" "ME" 3), [.str "B", .str "ME", .num 99 "99"], by decide +kernel, by decide +kernel, by decide +kernel,
    by decide +kernel, ⟨1, by decide +kernel, by decide +kernel, by decide +kernel⟩,
    ⟨2, by decide +kernel, by decide +kernel, by decide +kernel⟩⟩

/-! ### C108 and C109 -/

/-- C108: without ':' in an independent value, values such as "EAST;NMT" are not aggregated: the data stay as they are,
whatever is requested. -/
theorem C108_never_aggregated (c : SumConfig) (series : List (String × List String)) (f : IFrame)
    (h1 : ∀ v ∈ c.indyVals, ':' ∉ v.toList) (h2 : ∀ p ∈ series, ':' ∉ p.1.toList) :
    aggregateSpecial c series f = .ok f := special_id f h1 h2

example : (∀ v ∈ ["12", "24;36"], ':' ∉ v.toList) ∧ (∀ p ∈ [("vx_mask", ["EAST;NMT"])], ':' ∉ p.1.toList) := by
  decide +kernel

/-- C108 fails: for the requested "EAST;NMT" the table has the rows of EAST and of NMT with a value each, and no row of
the two together. -/
theorem C108_counterexample : ∃ (c : SumConfig) (f : IFrame) (out : Frame),
    c.series1 = some [("vx_mask", ["EAST;NMT"])] ∧ f.cols = ["vx_mask", "stat_name", "fbar", "stat_value"] ∧
    f.rows.map Prod.snd = [sumRow "EAST" "ME" 1, sumRow "NMT" "ME" 2] ∧ sumStat readX c f = .ok out ∧
    out.rows = [[.str "EAST", .str "ME", .num 1 ""], [.str "NMT", .str "ME", .num 2 ""]] :=
  ⟨sumCfg [("vx_mask", ["EAST;NMT"])] [] ["12"], sumFrame [sumRow "EAST" "ME" 1, sumRow "NMT" "ME" 2],
    ⟨["vx_mask", "stat_name", "stat_value"],
      [[.str "EAST", .str "ME", .num 1 ""], [.str "NMT", .str "ME", .num 2 ""]]⟩, rfl, rfl, by decide +kernel,
    by decide +kernel, rfl⟩

theorem foldlM_inv {σ α : Type*} (I : σ → Prop) (g : σ → α → Except PyErr σ) : ∀ (l : List α) (s s' : σ),
    (∀ s a s', a ∈ l → I s → g s a = .ok s' → I s') → I s → l.foldlM g s = .ok s' → I s' := by
  intro l
  induction l with
  | nil =>
    intro s s' _ h0 h
    simp only [List.foldlM_nil, pure, Except.pure, Except.ok.injEq] at h
    exact h ▸ h0
  | cons a l ih =>
    intro s s' hs h0 h
    rw [List.foldlM_cons] at h
    cases e : g s a with
    | error x => rw [e] at h; simp [bind, Except.bind] at h
    | ok t =>
      rw [e] at h
      simp only [bind, Except.bind] at h
      exact ih t s' (fun s b s' hb => hs s b s' (by simp [hb])) (hs s a t (by simp) h0 e) h

theorem splitAt1_none {sep : Char} : ∀ {cs : List Char}, sep ∉ cs → splitAt1 sep cs = [cs]
  | [], _ => rfl
  | c :: cs, h => by
    rw [List.mem_cons, not_or] at h
    rw [splitAt1, splitAt1_none h.2]
    have : (c == sep) = false := by simpa using fun e => h.1 e.symm
    simp [this]

theorem sumParts_plain {a : String} (h1 : ':' ∉ a.toList) (h2 : ';' ∉ a.toList) : sumParts a = [a] := by
  have : hasSemi a = false := by simpa [hasSemi] using h2
  rw [sumParts, this, splitAt1_none h1]
  simp

/-- The rows of a point are rows of the data that have the value requested for each variable. -/
theorem sumPointRows_mem {cols : List String} : ∀ {l : List (String × String)} {rows rows' : List (ℕ × List Val)},
    l.foldlM (fun rows q => do
      let i ← (⟨cols, []⟩ : Frame).col q.1
      .ok (rows.filter (fun r => (sumParts q.2).any (partMatches (cellAt r.2 i))))) rows = Except.ok rows' →
    ∀ r ∈ rows', r ∈ rows ∧ ∀ q ∈ l, ∃ i, (⟨cols, []⟩ : Frame).col q.1 = .ok i ∧
      (sumParts q.2).any (partMatches (cellAt r.2 i)) = true := by
  intro l
  induction l with
  | nil =>
    intro rows rows' h r hr
    simp only [List.foldlM_nil, pure, Except.pure, Except.ok.injEq] at h
    subst h
    exact ⟨hr, by simp⟩
  | cons q l ih =>
    intro rows rows' h r hr
    rw [List.foldlM_cons] at h
    cases e : (⟨cols, []⟩ : Frame).col q.1 with
    | error x => rw [e] at h; simp [bind, Except.bind] at h
    | ok i =>
      rw [e] at h
      simp only [bind, Except.bind] at h
      obtain ⟨h1, h2⟩ := ih h r hr
      rw [List.mem_filter] at h1
      refine ⟨h1.1, ?_⟩
      intro q' hq'
      rcases List.mem_cons.mp hq' with rfl | hq'
      · exact ⟨i, e, h1.2⟩
      · exact h2 q' hq'

/-- The rows one axis leaves: rows of the data whose value of `var` is among those requested. -/
theorem special_rows {c : SumConfig} {series : List (String × List String)} {f g : IFrame} {var : String}
    {A : List String} (ht : ∃ v ∈ c.indyVals, ':' ∈ v.toList) (hvar : (var, A) ∈ series)
    (hi : ∀ v ∈ c.indyVals, ';' ∉ v.toList) (hs : ∀ p ∈ series, ∀ v ∈ p.2, ';' ∉ v.toList)
    (hA : ∀ v ∈ A, ':' ∉ v.toList) (h : aggregateSpecial c series f = .ok g) :
    (g.cols = f.cols ∨ g.rows = []) ∧ ∀ r ∈ g.rows, r.2 ∈ f.rows.map Prod.snd ∧
      ∃ i, (⟨f.cols, []⟩ : Frame).col var = .ok i ∧ ∃ a ∈ A, CellIs (cellAt r.2 i) a := by
  have htr : sumAggregates c series = true := by
    obtain ⟨v, hv, hc⟩ := ht
    have h1 : series.isEmpty = false := by
      cases series with
      | nil => simp at hvar
      | cons => rfl
    have h2 : c.indyVals.any hasColon = true := by
      rw [List.any_eq_true]
      exact ⟨v, hv, by simpa [hasColon] using hc⟩
    simp [sumAggregates, h1, h2]
  unfold aggregateSpecial at h
  rw [if_pos htr] at h
  set G := fun (st : List (String × List String) × List (List Val)) (indy : String) => (do
      let i ← f.col c.indyVar
      let byIndy := f.rows.filter (fun r => isinTexts (cellAt r.2 i) (semiParts indy))
      (product (series.map Prod.snd)).foldlM (fun (st : List (String × List String) × List (List Val)) point => do
        let rows ← sumPointRows f.cols (series.map Prod.fst) point byIndy
        if point.any hasSemi then
          let g ← aggregateFieldValues c.lineType st.1 ⟨f.cols, rows⟩
          .ok (st.1, st.2 ++ g.rows.map Prod.snd)
        else if hasSemi indy then
          let series' := dictSet st.1 c.indyVar [indy]
          let g ← aggregateFieldValues c.lineType series' ⟨f.cols, rows⟩
          .ok (series', st.2 ++ g.rows.map Prod.snd)
        else .ok (st.1, st.2 ++ rows.map Prod.snd)) st : Except PyErr _) with hG
  have h' : (do
    let st ← c.indyVals.foldlM G (series, [])
    (.ok ⟨if c.indyVals.isEmpty || (product (series.map Prod.snd)).isEmpty then [] else f.cols,
      st.2.zipIdx.map (fun p : List Val × ℕ => (p.2, p.1))⟩ : Except PyErr IFrame)) = .ok g := h
  cases e : c.indyVals.foldlM G (series, []) with
  | error x => rw [e] at h'; simp [bind, Except.bind] at h'
  | ok st =>
    rw [e] at h'
    simp only [bind, Except.bind, Except.ok.injEq] at h'
    have key : ∀ r ∈ st.2, r ∈ f.rows.map Prod.snd ∧
        ∃ i, (⟨f.cols, []⟩ : Frame).col var = .ok i ∧ ∃ a ∈ A, CellIs (cellAt r i) a := by
      refine foldlM_inv (fun st => ∀ r ∈ st.2, r ∈ f.rows.map Prod.snd ∧
        ∃ i, (⟨f.cols, []⟩ : Frame).col var = .ok i ∧ ∃ a ∈ A, CellIs (cellAt r i) a) G c.indyVals _ _ ?_ (by simp) e
      intro st1 indy st2 hindy hst hok
      simp only [hG] at hok
      cases ei : f.col c.indyVar with
      | error x => rw [ei] at hok; simp [bind, Except.bind] at hok
      | ok i =>
        rw [ei] at hok
        have hns : hasSemi indy = false := by simpa [hasSemi] using hi indy hindy
        refine foldlM_inv (fun st => ∀ r ∈ st.2, r ∈ f.rows.map Prod.snd ∧
          ∃ i, (⟨f.cols, []⟩ : Frame).col var = .ok i ∧ ∃ a ∈ A, CellIs (cellAt r i) a) _ _ _ _ ?_ hst hok
        intro st1 point st2 hpoint hst hok
        have hfa := mem_product.mp hpoint
        have hps : point.any hasSemi = false := by
          rw [Bool.eq_false_iff, ne_eq, List.any_eq_true]
          rintro ⟨v, hv, hc⟩
          obtain ⟨k, hk, ek⟩ := List.mem_iff_getElem.mp hv
          have hk' : k < (series.map Prod.snd).length := by rw [← hfa.length_eq]; exact hk
          have := List.Forall₂.get hfa hk hk'
          simp only [List.get_eq_getElem, List.getElem_map, ek] at this
          have := hs _ (List.getElem_mem (by simpa using hk')) v this
          exact this (by simpa [hasSemi] using hc)
        cases er : sumPointRows f.cols (series.map Prod.fst) point
            (f.rows.filter (fun r => isinTexts (cellAt r.2 i) (semiParts indy))) with
        | error x => rw [er] at hok; simp [bind, Except.bind] at hok
        | ok rows =>
          rw [er] at hok
          simp only [bind, Except.bind, hps, hns, Bool.false_eq_true, if_false, Except.ok.injEq] at hok
          subst hok
          intro r hr
          rw [List.mem_append] at hr
          rcases hr with hr | hr
          · exact hst r hr
          · obtain ⟨r', hr', rfl⟩ := List.mem_map.mp hr
            obtain ⟨h1, h2⟩ := sumPointRows_mem er r' hr'
            refine ⟨List.mem_map_of_mem (List.mem_of_mem_filter h1), ?_⟩
            obtain ⟨k, hk, ek⟩ := List.mem_iff_getElem.mp hvar
            have hkp : k < point.length := by rw [hfa.length_eq]; simpa using hk
            have hkq : (var, point[k]) ∈ (series.map Prod.fst).zip point := by
              rw [List.mem_iff_getElem]
              refine ⟨k, by simp; omega, ?_⟩
              simp [List.getElem_zip, ek]
            obtain ⟨j, hj, hm⟩ := h2 _ hkq
            refine ⟨j, hj, point[k], ?_, ?_⟩
            · have := List.Forall₂.get hfa hkp (by simpa using hk)
              simpa [ek] using this
            · have hmA : point[k] ∈ A := by
                have := List.Forall₂.get hfa hkp (by simpa using hk)
                simpa [ek] using this
              rw [sumParts_plain (hA _ hmA) (hs _ hvar _ hmA)] at hm
              simpa [partMatches_iff] using hm
    subst h'
    constructor
    · show (if _ then _ else _) = _ ∨ _
      by_cases hc : (c.indyVals.isEmpty || (product (series.map Prod.snd)).isEmpty) = true
      · right
        have : st.2 = [] := by
          rcases List.eq_nil_or_concat st.2 with h | ⟨a, b, h⟩
          · exact h
          · exfalso
            rw [Bool.or_eq_true] at hc
            rcases hc with hc | hc
            · rw [List.isEmpty_iff] at hc
              obtain ⟨v, hv, -⟩ := ht
              rw [hc] at hv; simp at hv
            · rw [List.isEmpty_iff] at hc
              have hcon : st.2 = [] := by
                refine foldlM_inv (fun st => st.2 = []) G c.indyVals _ _ ?_ rfl e
                intro st1 indy st2 _ hst hok
                simp only [hG, hc] at hok
                cases ei : f.col c.indyVar with
                | error x => rw [ei] at hok; simp [bind, Except.bind] at hok
                | ok i =>
                  rw [ei] at hok
                  simp only [bind, Except.bind, List.foldlM_nil, pure, Except.pure, Except.ok.injEq] at hok
                  exact hok ▸ hst
              rw [hcon] at h; simp at h
        simp [this]
      · left; rw [if_neg hc]
    · intro r hr
      simp only [List.mem_map] at hr
      obtain ⟨⟨x, n⟩, hx, rfl⟩ := hr
      exact key x (List.fst_mem_of_mem_zipIdx hx)


theorem dropAll_rows {old : List String} : ∀ (names : List String) (g h : Frame), g.rows = [] →
    names.foldlM (fun g name => if name ∈ old then dropColumn g name else .ok g) g = .ok h → h.rows = [] := by
  intro names g h h0 e
  refine foldlM_inv (fun g => g.rows = []) _ names g h ?_ h0 e
  intro s a s' _ hs hok
  split at hok
  · unfold dropColumn at hok
    split at hok
    · simp at hok
    · obtain rfl := Except.ok.inj hok
      simp [hs]
  · obtain rfl := Except.ok.inj hok
    exact hs

theorem processLoop_cols_empty (statOf : String → List Val → Except PyErr Cell) (cols cols' : List String) :
    processLoop statOf cols [] ⟨cols', []⟩ = (⟨cols', []⟩, none) := rfl

theorem foldlM_ok {σ α : Type*} (g : σ → α → Except PyErr σ) : ∀ (l : List α) (s : σ),
    (∀ s, ∀ a ∈ l, ∃ s', g s a = .ok s') → ∃ s', l.foldlM g s = .ok s' := by
  intro l
  induction l with
  | nil => intro s _; exact ⟨s, rfl⟩
  | cons a l ih =>
    intro s hs
    obtain ⟨t, e⟩ := hs s a (by simp)
    obtain ⟨u, eu⟩ := ih t (fun s b hb => hs s b (by simp [hb]))
    exact ⟨u, by rw [List.foldlM_cons, e]; exact eu⟩

theorem col_of_mem {cols : List String} {rows : List (List Val)} {name : String} (h : name ∈ cols) :
    ∃ i, (Frame.mk cols rows).col name = .ok i := by
  obtain ⟨k, hk⟩ := Frame.idx?_of_mem (f := Frame.mk cols rows) h
  exact ⟨k, by rw [Frame.col, hk]⟩

theorem bind_ok {α β : Type} {m : Except PyErr α} {a : α} {k : α → Except PyErr β} (h : m = .ok a)
    (hk : ∀ a, ∃ b, k a = .ok b) : ∃ b, (m >>= k) = .ok b := by
  subst h; exact hk a

/-- Without values joined with ';', the aggregation of an axis ends without error when all its columns exist. -/
theorem special_ok {c : SumConfig} {series : List (String × List String)} {f : IFrame}
    (hi : ∀ v ∈ c.indyVals, ';' ∉ v.toList) (hs : ∀ p ∈ series, ∀ v ∈ p.2, ';' ∉ v.toList)
    (hc : c.indyVar ∈ f.cols) (hp : ∀ p ∈ series, p.1 ∈ f.cols) : ∃ g, aggregateSpecial c series f = .ok g := by
  unfold aggregateSpecial
  split
  · obtain ⟨i, ei⟩ : ∃ i, f.col c.indyVar = .ok i := col_of_mem hc
    have : ∀ (st : List (String × List String) × List (List Val)), ∃ st', c.indyVals.foldlM (fun (st : List (String × List String) × List (List Val)) indy => do
      let i ← f.col c.indyVar
      let byIndy := f.rows.filter (fun (r : ℕ × List Val) => isinTexts (cellAt r.2 i) (semiParts indy))
      (product (series.map Prod.snd)).foldlM (fun (st : List (String × List String) × List (List Val)) point => do
        let rows ← sumPointRows f.cols (series.map Prod.fst) point byIndy
        if point.any hasSemi then
          let g ← aggregateFieldValues c.lineType st.1 ⟨f.cols, rows⟩
          .ok (st.1, st.2 ++ g.rows.map Prod.snd)
        else if hasSemi indy then
          let series' := dictSet st.1 c.indyVar [indy]
          let g ← aggregateFieldValues c.lineType series' ⟨f.cols, rows⟩
          .ok (series', st.2 ++ g.rows.map Prod.snd)
        else .ok (st.1, st.2 ++ rows.map Prod.snd)) st) st = .ok st' := by
      intro st
      apply foldlM_ok
      intro st indy hindy
      rw [ei]
      have hns : hasSemi indy = false := by simpa [hasSemi] using hi indy hindy
      apply foldlM_ok
      intro st point hpoint
      have hfa := mem_product.mp hpoint
      have hps : point.any hasSemi = false := by
        rw [Bool.eq_false_iff, ne_eq, List.any_eq_true]
        rintro ⟨v, hv, hc⟩
        obtain ⟨k, hk, ek⟩ := List.mem_iff_getElem.mp hv
        have hk' : k < (series.map Prod.snd).length := by rw [← hfa.length_eq]; exact hk
        have := List.Forall₂.get hfa hk hk'
        simp only [List.get_eq_getElem, List.getElem_map, ek] at this
        have := hs _ (List.getElem_mem (by simpa using hk')) v this
        exact this (by simpa [hasSemi] using hc)
      obtain ⟨rows, er⟩ : ∃ rows, sumPointRows f.cols (series.map Prod.fst) point
          (f.rows.filter (fun r => isinTexts (cellAt r.2 i) (semiParts indy))) = .ok rows := by
        apply foldlM_ok
        intro s q hq
        obtain ⟨p, hpm, hpe⟩ := List.mem_map.mp (List.of_mem_zip hq).1
        obtain ⟨j, ej⟩ := col_of_mem (rows := []) (hpe ▸ hp p hpm)
        exact ⟨_, by rw [ej]; rfl⟩
      rw [er]
      simp only [bind, Except.bind, hps, hns, Bool.false_eq_true, if_false, Except.ok.injEq, exists_eq']
    obtain ⟨st', e⟩ := this (series, [])
    exact bind_ok e (fun _ => ⟨_, rfl⟩)
  · exact ⟨_, rfl⟩

/-- C109: when an independent value is a date and time (has ':') and the two axes request values of the same variable that
have nothing in common, the table written has no rows, whatever the data are. -/
theorem C109_nothing_left (statOf : String → List Val → Except PyErr Cell) (c : SumConfig) (f : IFrame)
    (s1 s2 : List (String × List String)) (fields : List String) (var : String) (A B : List String) (out : Frame)
    (hf : (c.lineType, fields) ∈ removedFields) (hlt : c.lineType = "sal1l2" → ∀ n ∈ f.cols, n ∉ anomalyNames.map Prod.fst)
    (hs1 : c.series1 = some s1) (hs2 : c.series2 = some s2)
    (ht : ∃ v ∈ c.indyVals, ':' ∈ v.toList) (hi : ∀ v ∈ c.indyVals, ';' ∉ v.toList)
    (h1 : ∀ p ∈ s1, ∀ v ∈ p.2, ';' ∉ v.toList) (h2 : ∀ p ∈ s2, ∀ v ∈ p.2, ';' ∉ v.toList)
    (hA : (var, A) ∈ s1) (hB : (var, B) ∈ s2) (hA' : ∀ v ∈ A, ':' ∉ v.toList) (hB' : ∀ v ∈ B, ':' ∉ v.toList)
    (hAB : ∀ v : Val, ∀ a ∈ A, ∀ b ∈ B, ¬ (CellIs v a ∧ CellIs v b))
    (hcols : c.indyVar ∈ f.cols ∧ ∀ p ∈ s1 ++ s2, p.1 ∈ f.cols)
    (h : sumStat statOf c f = .ok out) : out.rows = [] := by
  have hren := sumRename_id hlt
  obtain ⟨fields', hf', hff⟩ := removedFields_lookup hf
  have hsteps : (sumSteps statOf c f).1.rows = [] := by
    unfold sumSteps
    split
    · rename_i he; simpa using he
    · rw [hs1]
      obtain ⟨f1, e1⟩ := special_ok (f := f) hi h1 hcols.1 (fun p hp => hcols.2 p (by simp [hp]))
      obtain ⟨k1, r1⟩ := special_rows ht hA hi h1 hA' e1
      simp only [e1, hs2]
      cases e2 : aggregateSpecial c s2 f1 with
      | error x =>
        show f1.rows = []
        rcases k1 with k1 | k1
        · obtain ⟨f2, e2'⟩ := special_ok (f := f1) hi h2 (by rw [k1]; exact hcols.1)
            (fun p hp => by rw [k1]; exact hcols.2 p (by simp [hp]))
          rw [e2'] at e2; simp at e2
        · exact k1
      | ok f2 =>
        obtain ⟨k2, r2⟩ := special_rows ht hB hi h2 hB' e2
        have : f2.rows = [] := by
          rw [List.eq_nil_iff_forall_not_mem]
          intro r hr
          obtain ⟨m, j, hj, b, hb, cb⟩ := r2 r hr
          obtain ⟨r', hr', er⟩ := List.mem_map.mp m
          obtain ⟨-, i, hi', a, ha, ca⟩ := r1 r' hr'
          rcases k1 with k1 | k1
          · rw [k1, hi'] at hj
            obtain rfl : i = j := by simpa using hj
            rw [er] at ca
            exact hAB _ a ha b hb ⟨ca, cb⟩
          · rw [k1] at hr'; simp at hr'
        show (processRows statOf f2).1.rows = []
        unfold processRows
        rw [this]
        exact this
  unfold sumStat at h
  rw [hf'] at h
  simp only [hren] at h
  generalize he : sumSteps statOf c f = x at h hsteps
  obtain ⟨g, e⟩ := x
  have hg : g.rows = [] := hsteps
  have hgr : g.frame.rows = [] := by simp [IFrame.frame, hg]
  have fin : ∀ o : Except PyErr IFrame, (o = .ok g ∨ ∃ x, o = .error x) →
      (do
        let out ← o
        let g ← fields'.foldlM (fun g name => if name ∈ f.cols then dropColumn g name else .ok g) out.frame
        if "equalize" ∈ g.cols then dropColumn g "equalize" else .ok g) = Except.ok out → out.rows = [] := by
    rintro o (rfl | ⟨x, rfl⟩) h
    · simp only [bind, Except.bind] at h
      cases eg : fields'.foldlM (fun g name => if name ∈ f.cols then dropColumn g name else .ok g) g.frame with
      | error x => rw [eg] at h; simp at h
      | ok g' =>
        rw [eg] at h
        simp only at h
        have := dropAll_rows _ _ _ hgr eg
        refine dropAll_rows (old := if "equalize" ∈ g'.cols then ["equalize"] else []) ["equalize"] g' out this ?_
        split at h
        · rename_i hm
          simp [hm, h]
        · rename_i hm
          simp [hm, h, pure, Except.pure, bind, Except.bind]
    · simp [bind, Except.bind] at h
  rcases e with - | e
  · exact fin _ (Or.inl rfl) h
  · cases e <;> first | exact fin _ (Or.inl rfl) h | exact fin _ (Or.inr ⟨_, rfl⟩) h

/-- A run that meets the hypotheses of `C109_nothing_left`: model A on one axis and model B on the other, data for both. -/
def twoAxes : SumConfig := ⟨"sl1l2", "fcst_valid_beg", ["2020-01-01 00:00:00"], some [("model", ["A"])], some [("model", ["B"])]⟩
def twoModels : IFrame := ⟨["model", "fcst_valid_beg", "stat_name", "fbar", "stat_value"],
  [(0, [.str "A", .str "2020-01-01 00:00:00", .str "ME", .num 1 "1", .null]),
   (1, [.str "B", .str "2020-01-01 00:00:00", .str "ME", .num 2 "2", .null])]⟩

/-- C109 fails: the data have a row for each axis, and the table has none. -/
theorem C109_counterexample :
    sumStat readX twoAxes twoModels = .ok ⟨["model", "fcst_valid_beg", "stat_name", "stat_value"], []⟩ ∧
    (∃ r ∈ twoModels.rows, HasCell twoModels.frame r.2 "model" (.str "A")) ∧
    (∃ r ∈ twoModels.rows, HasCell twoModels.frame r.2 "model" (.str "B")) :=
  ⟨by decide +kernel, ⟨_, List.mem_cons_self, 0, by decide +kernel, by decide +kernel, by decide +kernel⟩,
    ⟨_, List.mem_cons_of_mem _ List.mem_cons_self, 0, by decide +kernel, by decide +kernel, by decide +kernel⟩⟩

example : (∃ v ∈ twoAxes.indyVals, ':' ∈ v.toList) ∧ (∀ v ∈ twoAxes.indyVals, ';' ∉ v.toList) ∧
    (∀ v : Val, ∀ a ∈ ["A"], ∀ b ∈ ["B"], ¬ (CellIs v a ∧ CellIs v b)) := by
  refine ⟨by decide +kernel, by decide +kernel, ?_⟩
  intro v a ha b hb
  obtain rfl : a = "A" := by simpa using ha
  obtain rfl : b = "B" := by simpa using hb
  rw [← partMatches_iff, ← partMatches_iff]
  have e1 : pyInt? "A" = none := by decide +kernel
  have e2 : pyInt? "B" = none := by decide +kernel
  have e3 : isStringStrictlyFloat (some "A") = false := by decide +kernel
  have e4 : isStringStrictlyFloat (some "B") = false := by decide +kernel
  simp only [partMatches, e1, e2, e3, e4]
  rintro ⟨ha, hb⟩
  simp only [Bool.false_eq_true, if_false, beq_iff_eq] at ha hb
  rw [ha] at hb
  simp at hb

end Metcalcpy.Props
