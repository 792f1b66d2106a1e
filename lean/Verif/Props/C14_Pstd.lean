/-
C14  The ROC area lies between 0 and 1, and is the concordance probability.
C55  The Brier score is computable for valid input (false: it raises for every non-empty table).
C74  Reliability - resolution + uncertainty is the Brier score; the parts lie in their ranges.
-/
import Verif.Spec.Pstd
import Verif.Lemmas.SetCol
import Verif.Lemmas.Round
import Verif.Lemmas.Pairs
import Verif.Props.C27_Bootstrap
import Mathlib.Tactic.FieldSimp
import Mathlib.Tactic.Positivity

namespace Metcalcpy.Props
open Metcalcpy Spec

/-! ### The common data frame -/

theorem needNumbers_some (l : List ℚ) : needNumbers (l.map some) = .ok l := by
  have : (l.map some).any Option.isNone = false := by simp
  have e : (l.map some).filterMap id = l := by rw [List.filterMap_map]; simp
  rw [needNumbers, this, e]; rfl

theorem firstCell_ok {t : Table} {c : String} {x : Cell} {rest : List Cell}
    (h : IsColumn t c (x :: rest)) : firstCell t c = .ok x := by
  obtain ⟨i, h1, h2, h3⟩ := h
  have hi : t.colIdx? c = some i := colIdx?_eq_some.mpr ⟨h1, h2⟩
  cases hr : t.rows with
  | nil => rw [hr] at h3; simp at h3
  | cons r rs =>
    rw [hr] at h3
    simp only [List.map_cons, List.cons.injEq] at h3
    simp only [firstCell, hr, hi, h3.1]

theorem zip3_map {α : Type} (f g h : α → ℚ) (l : List α) :
    ((l.map f).zip ((l.map g).zip (l.map h))).map (fun p => (⟨p.1, p.2.1, p.2.2⟩ : Bin)) =
      l.map (fun x => ⟨f x, g x, h x⟩) := by
  induction l with
  | nil => rfl
  | cons x l ih => simp [ih]

/-- The data frame holds the pooled counts of the bins that are not empty. -/
theorem commonStats_ok {t : Table} {ps : List PctBin} (D : PctData t ps) :
    commonStats t = .ok ((pooledBins ps).filter (fun b => b.n ≠ 0)) := by
  have hth : (threshNames t.cols).mapM (firstCell t) = .ok ((ps.map PctBin.th).map some) := by
    rw [threshNames, D.th_cols]
    have key : ∀ qs : List PctBin, (∀ p ∈ qs, p ∈ ps) →
        (qs.map PctBin.thName).mapM (firstCell t) = .ok ((qs.map PctBin.th).map some) := by
      intro qs
      induction qs with
      | nil => intro _; rfl
      | cons p qs ih =>
        intro hq
        obtain ⟨rest, hp⟩ := D.th p (hq p (by simp))
        rw [List.map_cons, List.mapM_cons, firstCell_ok hp, ih (fun q h => hq q (by simp [h]))]
        rfl
    exact key ps (fun _ h => h)
  have hoy : (oyNames t.cols).map (fun c => sumColumn t c) = (ps.map (fun p => p.oy.sum)).map some := by
    rw [oyNames, D.oy_cols, List.map_map, List.map_map]
    refine List.map_congr_left (fun p hp => ?_)
    exact sumColumn_of_complete D.rows_ne (D.oy p hp)
  have hon : (onNames t.cols).map (fun c => sumColumn t c) = (ps.map (fun p => p.on.sum)).map some := by
    rw [onNames, D.on_cols, List.map_map, List.map_map]
    refine List.map_congr_left (fun p hp => ?_)
    exact sumColumn_of_complete D.rows_ne (D.on p hp)
  simp only [commonStats, hth, hoy, hon, bind, Except.bind, List.length_map, ne_eq, not_true_eq_false,
    or_self, if_false, needNumbers_some]
  rw [mkBins, zip3_map]; rfl

theorem sum_nonneg_q (l : List ℚ) (h : ∀ x ∈ l, 0 ≤ x) : 0 ≤ l.sum := by
  induction l with
  | nil => simp
  | cons x l ih =>
    rw [List.sum_cons]
    exact add_nonneg (h x (by simp)) (ih (fun y hy => h y (by simp [hy])))

theorem pooled_nonneg {t : Table} {ps : List PctBin} (D : PctData t ps) :
    ∀ b ∈ pooledBins ps, 0 ≤ b.oy ∧ 0 ≤ b.on := by
  intro b hb
  obtain ⟨p, hp, rfl⟩ := List.mem_map.mp hb
  exact ⟨sum_nonneg_q _ (D.oy_nonneg p hp), sum_nonneg_q _ (D.on_nonneg p hp)⟩

theorem sum_filter_ne (bs : List Bin) (f : Bin → ℚ) (h : ∀ b ∈ bs, b.n = 0 → f b = 0) :
    ((bs.filter (fun b => b.n ≠ 0)).map f).sum = (bs.map f).sum := by
  induction bs with
  | nil => rfl
  | cons b bs ih =>
    have ih := ih (fun c hc => h c (by simp [hc]))
    by_cases hb : b.n = 0
    · rw [List.filter_cons_of_neg (by simp [hb]), ih, List.map_cons, List.sum_cons, h b (by simp) hb,
        zero_add]
    · rw [List.filter_cons_of_pos (by simp [hb]), List.map_cons, List.map_cons, List.sum_cons,
        List.sum_cons, ih]

theorem empty_bin {b : Bin} (h : 0 ≤ b.oy ∧ 0 ≤ b.on) (hn : b.n = 0) : b.oy = 0 ∧ b.on = 0 := by
  unfold Bin.n at hn
  constructor <;> linarith [h.1, h.2]

/-! ### C14 -/

section auc
variable (bs : List Bin)

/-- Mass of `f` above, at or above, and at a threshold. -/
def above (f : Bin → ℚ) (t : ℚ) : ℚ := maskSum bs (fun b => decide (b.thresh > t)) f
def atLeast (f : Bin → ℚ) (t : ℚ) : ℚ := maskSum bs (fun b => decide (t ≤ b.thresh)) f
def at' (f : Bin → ℚ) (t : ℚ) : ℚ := maskSum bs (fun b => decide (b.thresh = t)) f

theorem maskSum_eq (p : Bin → Bool) (f : Bin → ℚ) :
    maskSum bs p f = (bs.map (fun b => if p b then f b else 0)).sum := by
  induction bs with
  | nil => rfl
  | cons b bs ih =>
    unfold maskSum at ih ⊢
    by_cases h : p b = true
    · rw [List.filter_cons_of_pos h, List.map_cons, List.sum_cons, ih, List.map_cons, List.sum_cons,
        if_pos h]
    · rw [List.filter_cons_of_neg h, ih, List.map_cons, List.sum_cons, if_neg h, zero_add]

theorem above_add_at (f : Bin → ℚ) (t : ℚ) : above bs f t + at' bs f t = atLeast bs f t := by
  unfold above at' atLeast
  rw [maskSum_eq, maskSum_eq, maskSum_eq, ← sum_map_add']
  congr 1
  apply List.map_congr_left
  intro b _
  rcases lt_trichotomy b.thresh t with h | h | h
  · simp [not_lt.mpr h.le, h.ne, not_le.mpr h]
  · simp [h]
  · simp [h, h.ne', h.le]

theorem above_add_below (f : Bin → ℚ) (t : ℚ) :
    maskSum bs (fun b => decide (b.thresh > t)) f + maskSum bs (fun b => decide (b.thresh ≤ t)) f =
      (bs.map f).sum := by
  rw [maskSum_eq, maskSum_eq, ← sum_map_add']
  congr 1
  apply List.map_congr_left
  intro b _
  by_cases h : b.thresh > t
  · simp [h, not_le.mpr h]
  · simp [h, not_lt.mp h]

theorem rocPoint_ok (he : (bs.map Bin.oy).sum ≠ 0) (hn : (bs.map Bin.on).sum ≠ 0) (t : ℚ) :
    rocPoint bs t = .ok (above bs Bin.oy t / (bs.map Bin.oy).sum, above bs Bin.on t / (bs.map Bin.on).sum) := by
  simp only [rocPoint, above_add_below, npDiv, if_neg he, if_neg hn, bind, Except.bind]
  rfl

/-- Area from a point above threshold list `ts` (increasing, containing all thresholds from its head on). -/
theorem trapezoids_eq (E N : ℚ) (hE : E ≠ 0) (hN : N ≠ 0) : ∀ (ts : List ℚ) (P F : ℚ),
    ts.Pairwise (· < ·) →
    (match ts with
      | [] => P = 0 ∧ F = 0
      | t :: _ => P = atLeast bs Bin.oy t / E ∧ F = atLeast bs Bin.on t / N) →
    (∀ b ∈ bs, (∃ t ∈ ts.head?, t ≤ b.thresh) → b.thresh ∈ ts) →
    trapezoids ((P, F) :: ts.map (fun t => (above bs Bin.oy t / E, above bs Bin.on t / N)) ++ [(0, 0)]) =
      (ts.map (fun t => at' bs Bin.on t * (above bs Bin.oy t + 1 / 2 * at' bs Bin.oy t))).sum / (N * E)
  | [], P, F, _, h, _ => by
    obtain ⟨rfl, rfl⟩ := h
    simp [trapezoids]
  | t :: ts, P, F, hs, h, hc => by
    obtain ⟨rfl, rfl⟩ := h
    have hs' := List.pairwise_cons.mp hs
    have next : ∀ f : Bin → ℚ, (match ts with
        | [] => above bs f t = 0
        | t' :: _ => above bs f t = atLeast bs f t') := by
      intro f
      cases ts with
      | nil =>
        simp only
        unfold above
        rw [maskSum_eq]
        apply List.sum_eq_zero
        intro x hx
        obtain ⟨b, hb, rfl⟩ := List.mem_map.mp hx
        by_cases hbt : b.thresh > t
        · have := hc b hb ⟨t, by simp, hbt.le⟩
          rw [List.mem_singleton] at this
          exact absurd this hbt.ne'
        · simp [hbt]
      | cons t' ts =>
        simp only
        unfold above atLeast
        rw [maskSum_eq, maskSum_eq]
        congr 1
        apply List.map_congr_left
        intro b hb
        by_cases hbt : b.thresh > t
        · have hm := hc b hb ⟨t, by simp, hbt.le⟩
          rcases List.mem_cons.mp hm with h | h
          · exact absurd h hbt.ne'
          · have : t' ≤ b.thresh := by
              rcases List.mem_cons.mp h with h | h
              · exact h.ge
              · exact ((List.pairwise_cons.mp hs'.2).1 _ h).le
            simp [hbt, this]
        · have : ¬ t' ≤ b.thresh := by
            have := hs'.1 t' (by simp)
            push Not at hbt ⊢; linarith
          simp [hbt, this]
    have ih := trapezoids_eq E N hE hN ts (above bs Bin.oy t / E) (above bs Bin.on t / N) hs'.2
      (by
        have h1 := next Bin.oy
        have h2 := next Bin.on
        cases ts with
        | nil => simp only at h1 h2 ⊢; rw [h1, h2]; simp
        | cons t' ts => simp only at h1 h2 ⊢; rw [h1, h2]; exact ⟨rfl, rfl⟩)
      (by
        intro b hb ⟨t', ht', hle⟩
        have ht'm : t' ∈ ts := List.mem_of_mem_head? ht'
        have hlt : t < t' := hs'.1 t' ht'm
        have := hc b hb ⟨t, by simp, by linarith⟩
        rcases List.mem_cons.mp this with h | h
        · exfalso; linarith
        · exact h)
    have hdef : trapezoids ((atLeast bs Bin.oy t / E, atLeast bs Bin.on t / N) ::
        (t :: ts).map (fun t => (above bs Bin.oy t / E, above bs Bin.on t / N)) ++ [(0, 0)]) =
        1 / 2 * (atLeast bs Bin.oy t / E + above bs Bin.oy t / E) *
          (atLeast bs Bin.on t / N - above bs Bin.on t / N) +
        trapezoids ((above bs Bin.oy t / E, above bs Bin.on t / N) ::
          ts.map (fun t => (above bs Bin.oy t / E, above bs Bin.on t / N)) ++ [(0, 0)]) := rfl
    rw [hdef, ih, List.map_cons, List.sum_cons, ← above_add_at, ← above_add_at]
    field_simp
    ring

theorem sum_regroup (h : ℚ → ℚ) (f : Bin → ℚ) : ∀ (ts : List ℚ), ts.Nodup → (∀ b ∈ bs, b.thresh ∈ ts) →
    (ts.map (fun t => at' bs f t * h t)).sum = (bs.map (fun b => f b * h b.thresh)).sum := by
  intro ts hn hm
  induction bs with
  | nil => simp [at', maskSum]
  | cons b bs ih =>
    have ih := ih (fun c hc => hm c (by simp [hc]))
    rw [List.map_cons, List.sum_cons, ← ih]
    have e : ∀ t, at' (b :: bs) f t * h t = (if b.thresh = t then f b * h b.thresh else 0) + at' bs f t * h t := by
      intro t
      unfold at'
      rw [maskSum_eq, maskSum_eq, List.map_cons, List.sum_cons, add_mul]
      by_cases hb : b.thresh = t
      · simp [hb]
      · simp [hb]
    simp only [e]
    rw [sum_map_add']
    congr 1
    have hb := hm b (by simp)
    clear e ih hm
    clear ih
    induction ts with
    | nil => simp at hb
    | cons t ts ih =>
      rw [List.nodup_cons] at hn
      rw [List.map_cons, List.sum_cons]
      by_cases h1 : b.thresh = t
      · have h2 : (ts.map (fun t => if b.thresh = t then f b * h b.thresh else 0)).sum = 0 := by
          apply List.sum_eq_zero
          intro x hx
          obtain ⟨t', ht', rfl⟩ := List.mem_map.mp hx
          rw [if_neg]
          rintro rfl
          exact hn.1 (h1 ▸ ht')
        rw [h2, if_pos h1, add_zero]
      · rw [if_neg h1, zero_add]
        exact ih hn.2 ((List.mem_cons.mp hb).resolve_left h1)

end auc

theorem rocThresholds_spec (bs : List Bin) :
    (rocThresholds bs).Pairwise (· < ·) ∧ ∀ b, b ∈ bs → b.thresh ∈ rocThresholds bs := by
  have hp : (rocThresholds bs).Pairwise (· ≤ ·) := List.pairwise_insertionSort _ _
  have hn : (rocThresholds bs).Nodup :=
    (List.perm_insertionSort (· ≤ ·) _).nodup_iff.mpr (List.nodup_dedup _)
  refine ⟨?_, ?_⟩
  · rw [List.Nodup] at hn
    refine (hp.and hn).imp ?_
    intro a b h
    exact lt_of_le_of_ne h.1 h.2
  · intro b hb
    exact (List.mem_insertionSort _).mpr (List.mem_dedup.mpr (List.mem_map.mpr ⟨b, hb, rfl⟩))

theorem inner_concordance (bs : List Bin) (t : ℚ) :
    (bs.map (fun c => c.oy * concordance c.thresh t)).sum = above bs Bin.oy t + 1 / 2 * at' bs Bin.oy t := by
  unfold above at'
  rw [maskSum_eq, maskSum_eq, ← sum_map_mul_left', ← sum_map_add']
  congr 1
  apply List.map_congr_left
  intro c _
  unfold concordance
  rcases lt_trichotomy c.thresh t with h | h | h
  · simp [not_lt.mpr h.le, h.ne]
  · simp [h]; ring
  · simp [h, h.ne']

theorem auc_bins (bs : List Bin) (he : (bs.map Bin.oy).sum ≠ 0) (hn : (bs.map Bin.on).sum ≠ 0) :
    ((rocThresholds bs).mapM (rocPoint bs)) = .ok ((rocThresholds bs).map
      (fun t => (above bs Bin.oy t / (bs.map Bin.oy).sum, above bs Bin.on t / (bs.map Bin.on).sum))) ∧
    trapezoids ((1, 1) :: (rocThresholds bs).map
      (fun t => (above bs Bin.oy t / (bs.map Bin.oy).sum, above bs Bin.on t / (bs.map Bin.on).sum)) ++
        [(0, 0)]) = concordanceProb bs := by
  obtain ⟨hs, hm⟩ := rocThresholds_spec bs
  refine ⟨mapM_except_ok _ _ _ (fun t _ => rocPoint_ok bs he hn t), ?_⟩
  have hne : rocThresholds bs ≠ [] := by
    intro h
    cases bs with
    | nil => simp at he
    | cons b bs => have := hm b (by simp); rw [h] at this; simp at this
  have all : ∀ (f : Bin → ℚ) (t : ℚ), (∀ b ∈ bs, t ≤ b.thresh) → atLeast bs f t = (bs.map f).sum := by
    intro f t h
    unfold atLeast
    rw [maskSum_eq]
    congr 1
    exact List.map_congr_left (fun b hb => by simp [h b hb])
  have key := trapezoids_eq bs _ _ he hn (rocThresholds bs) 1 1 hs (by
      cases hr : rocThresholds bs with
      | nil => exact absurd hr hne
      | cons t ts =>
        have hle : ∀ b ∈ bs, t ≤ b.thresh := by
          intro b hb
          have := hm b hb
          rw [hr] at this hs
          rcases List.mem_cons.mp this with h | h
          · exact h.ge
          · exact ((List.pairwise_cons.mp hs).1 _ h).le
        simp only
        rw [all _ _ hle, all _ _ hle, div_self he, div_self hn]
        exact ⟨rfl, rfl⟩)
    (fun b hb _ => hm b hb)
  rw [key, sum_regroup bs (fun t => above bs Bin.oy t + 1 / 2 * at' bs Bin.oy t) Bin.on _
    (hs.imp (fun h => ne_of_lt h)) hm]
  unfold concordanceProb nonEvents events
  congr 2
  exact List.map_congr_left (fun b _ => by rw [inner_concordance])

theorem concordance_filter (bs : List Bin) (h : ∀ b ∈ bs, 0 ≤ b.oy ∧ 0 ≤ b.on) :
    concordanceProb (bs.filter (fun b => b.n ≠ 0)) = concordanceProb bs := by
  have e1 : ((bs.filter (fun b => b.n ≠ 0)).map Bin.oy).sum = (bs.map Bin.oy).sum :=
    sum_filter_ne bs _ (fun b hb hn => (empty_bin (h b hb) hn).1)
  have e2 : ((bs.filter (fun b => b.n ≠ 0)).map Bin.on).sum = (bs.map Bin.on).sum :=
    sum_filter_ne bs _ (fun b hb hn => (empty_bin (h b hb) hn).2)
  have e3 : ∀ t, ((bs.filter (fun b => b.n ≠ 0)).map (fun c => c.oy * concordance c.thresh t)).sum =
      (bs.map (fun c => c.oy * concordance c.thresh t)).sum := fun t =>
    sum_filter_ne bs _ (fun b hb hn => by rw [(empty_bin (h b hb) hn).1, zero_mul])
  unfold concordanceProb nonEvents events
  rw [e1, e2]
  congr 1
  simp only [e3]
  exact sum_filter_ne bs _ (fun b hb hn => by rw [(empty_bin (h b hb) hn).2, zero_mul])

/-- C14: the ROC area computed from a table with at least one event and one non-event is the probability
that a random event lies in a higher bin than a random non-event (ties count half), rounded. -/
theorem C14_auc_concordance (t : Table) (ps : List PctBin) (D : PctData t ps)
    (he : 0 < events (pooledBins ps)) (hn : 0 < nonEvents (pooledBins ps)) :
    pstdRocAuc t = .ok (roundHalfUp (concordanceProb (pooledBins ps)) 7) := by
  have hnn := pooled_nonneg D
  have e1 : (((pooledBins ps).filter (fun b => b.n ≠ 0)).map Bin.oy).sum = events (pooledBins ps) :=
    sum_filter_ne _ _ (fun b hb hn => (empty_bin (hnn b hb) hn).1)
  have e2 : (((pooledBins ps).filter (fun b => b.n ≠ 0)).map Bin.on).sum = nonEvents (pooledBins ps) :=
    sum_filter_ne _ _ (fun b hb hn => (empty_bin (hnn b hb) hn).2)
  obtain ⟨h1, h2⟩ := auc_bins ((pooledBins ps).filter (fun b => b.n ≠ 0)) (by rw [e1]; exact he.ne')
    (by rw [e2]; exact hn.ne')
  simp only [pstdRocAuc, commonStats_ok D, bind, Except.bind, h1, h2]
  rw [concordance_filter _ hnn]
  rfl

theorem concordance_range (x y : ℚ) : 0 ≤ concordance x y ∧ concordance x y ≤ 1 := by
  unfold concordance
  split_ifs <;> norm_num

theorem sum_le_sum_q {α : Type} (l : List α) (f g : α → ℚ) (h : ∀ x ∈ l, f x ≤ g x) :
    (l.map f).sum ≤ (l.map g).sum := by
  induction l with
  | nil => simp
  | cons x l ih =>
    simp only [List.map_cons, List.sum_cons]
    exact add_le_add (h x (by simp)) (ih (fun y hy => h y (by simp [hy])))

theorem concordanceProb_range (bs : List Bin) (h : ∀ b ∈ bs, 0 ≤ b.oy ∧ 0 ≤ b.on)
    (he : 0 < events bs) (hn : 0 < nonEvents bs) :
    0 ≤ concordanceProb bs ∧ concordanceProb bs ≤ 1 := by
  have inner : ∀ t, 0 ≤ (bs.map (fun c => c.oy * concordance c.thresh t)).sum ∧
      (bs.map (fun c => c.oy * concordance c.thresh t)).sum ≤ events bs := by
    intro t
    constructor
    · apply sum_nonneg_q
      intro x hx
      obtain ⟨c, hc, rfl⟩ := List.mem_map.mp hx
      exact mul_nonneg (h c hc).1 (concordance_range _ _).1
    · unfold events
      apply sum_le_sum_q
      intro c hc
      exact mul_le_of_le_one_right (h c hc).1 (concordance_range _ _).2
  unfold concordanceProb
  constructor
  · apply div_nonneg _ (mul_nonneg hn.le he.le)
    apply sum_nonneg_q
    intro x hx
    obtain ⟨b, hb, rfl⟩ := List.mem_map.mp hx
    exact mul_nonneg (h b hb).2 (inner _).1
  · rw [div_le_one (mul_pos hn he)]
    calc _ ≤ (bs.map (fun b => b.on * events bs)).sum :=
          sum_le_sum_q _ _ _ (fun b hb => mul_le_mul_of_nonneg_left (inner _).2 (h b hb).2)
      _ = nonEvents bs * events bs := by
          unfold nonEvents
          have := sum_map_mul_left' bs (events bs) Bin.on
          simp only [mul_comm _ (events bs)] at this ⊢
          exact this

/-- C14: the ROC area lies in [0,1], and is 1 when every event lies in a higher bin than every non-event. -/
theorem C14_auc_range (t : Table) (ps : List PctBin) (D : PctData t ps)
    (he : 0 < events (pooledBins ps)) (hn : 0 < nonEvents (pooledBins ps)) :
    ∃ v, pstdRocAuc t = .ok v ∧ 0 ≤ v ∧ v ≤ 1 ∧
      ((∀ b ∈ pooledBins ps, ∀ c ∈ pooledBins ps, 0 < b.oy → 0 < c.on → c.thresh < b.thresh) → v = 1) ∧
      ((∀ b ∈ pooledBins ps, ∀ c ∈ pooledBins ps, 0 < b.oy → 0 < c.on → b.thresh < c.thresh) → v = 0) := by
  have hnn := pooled_nonneg D
  have hr := concordanceProb_range _ hnn he hn
  refine ⟨_, C14_auc_concordance t ps D he hn, round7_nonneg hr.1, round7_le_one hr.2, fun hp => ?_,
    fun hp => ?_⟩
  · have : concordanceProb (pooledBins ps) = 1 := by
      generalize pooledBins ps = bs at *
      unfold concordanceProb
      rw [div_eq_one_iff_eq (mul_pos hn he).ne']
      have e : bs.map (fun b => b.on * (bs.map (fun c => c.oy * concordance c.thresh b.thresh)).sum) =
          bs.map (fun b => b.on * events bs) := by
        refine List.map_congr_left (fun b hb => ?_)
        rcases (hnn b hb).2.eq_or_lt with h0 | h0
        · rw [← h0, zero_mul, zero_mul]
        · congr 1
          unfold events
          congr 1
          refine List.map_congr_left (fun c hc => ?_)
          rcases (hnn c hc).1.eq_or_lt with h1 | h1
          · rw [← h1, zero_mul]
          · rw [concordance, if_pos (hp c hc b hb h1 h0), mul_one]
      rw [e]
      unfold nonEvents
      have := sum_map_mul_left' bs (events bs) Bin.on
      simp only [mul_comm _ (events bs)] at this ⊢
      exact this
    rw [this]; exact round7_one
  · have : concordanceProb (pooledBins ps) = 0 := by
      generalize pooledBins ps = bs at *
      unfold concordanceProb
      rw [div_eq_zero_iff]; left
      apply List.sum_eq_zero
      intro x hx
      obtain ⟨b, hb, rfl⟩ := List.mem_map.mp hx
      rcases (hnn b hb).2.eq_or_lt with h0 | h0
      · rw [← h0, zero_mul]
      · rw [List.sum_eq_zero, mul_zero]
        intro x hx
        obtain ⟨c, hc, rfl⟩ := List.mem_map.mp hx
        rcases (hnn c hc).1.eq_or_lt with h1 | h1
        · rw [← h1, zero_mul]
        · have := hp c hc b hb h1 h0
          rw [concordance, if_neg (not_lt.mpr this.le), if_neg this.ne, mul_zero]
    rw [this]; exact round7_zero

/-- Two rows, three bins; the second bin is empty. -/
def pctTable : Table :=
  { cols := ["o_bar", "thresh_i_1", "oy_i_1", "on_i_1", "thresh_i_2", "oy_i_2", "on_i_2", "thresh_i_3",
      "oy_i_3", "on_i_3"]
    rows := [[some (1 / 2), some 0, some 1, some 3, some (1 / 2), some 0, some 0, some (9 / 10), some 2, some 0],
             [some (1 / 2), some 0, some 0, some 1, some (1 / 2), some 0, some 0, some (9 / 10), some 2, some 1]] }

def pctBins : List PctBin :=
  [⟨"thresh_i_1", "oy_i_1", "on_i_1", 0, [1, 0], [3, 1]⟩,
   ⟨"thresh_i_2", "oy_i_2", "on_i_2", 1 / 2, [0, 0], [0, 0]⟩,
   ⟨"thresh_i_3", "oy_i_3", "on_i_3", 9 / 10, [2, 2], [0, 1]⟩]

theorem pctTable_data : PctData pctTable pctBins where
  rows_ne := by decide
  oy_cols := by decide
  on_cols := by decide
  th_cols := by decide
  th := by
    intro p hp
    simp only [pctBins, List.mem_cons, List.not_mem_nil, or_false] at hp
    rcases hp with rfl | rfl | rfl
    · exact ⟨[some 0], 1, by decide, by decide, by decide +kernel⟩
    · exact ⟨[some (1 / 2)], 4, by decide, by decide, by decide +kernel⟩
    · exact ⟨[some (9 / 10)], 7, by decide, by decide, by decide +kernel⟩
  oy := by
    intro p hp
    simp only [pctBins, List.mem_cons, List.not_mem_nil, or_false] at hp
    rcases hp with rfl | rfl | rfl
    · exact ⟨2, by decide, by decide, by decide +kernel⟩
    · exact ⟨5, by decide, by decide, by decide +kernel⟩
    · exact ⟨8, by decide, by decide, by decide +kernel⟩
  on := by
    intro p hp
    simp only [pctBins, List.mem_cons, List.not_mem_nil, or_false] at hp
    rcases hp with rfl | rfl | rfl
    · exact ⟨3, by decide, by decide, by decide +kernel⟩
    · exact ⟨6, by decide, by decide, by decide +kernel⟩
    · exact ⟨9, by decide, by decide, by decide +kernel⟩
  oy_nonneg := by decide +kernel
  on_nonneg := by decide +kernel

example : 0 < events (pooledBins pctBins) ∧ 0 < nonEvents (pooledBins pctBins) := by decide +kernel
example : pstdRocAuc pctTable = .ok (roundHalfUp (4 / 5) 7) := by decide +kernel

/-! ### C55 -/

theorem binsTotal_filter (bs : List Bin) :
    binsTotal (bs.filter (fun b => b.n ≠ 0)) = (bs.map Bin.n).sum :=
  sum_filter_ne bs _ (fun _ _ hn => hn)

theorem total_eq (bs : List Bin) : (bs.map Bin.n).sum = events bs + nonEvents bs := by
  unfold events nonEvents
  rw [← sum_map_add']; rfl

/-- C55 fails for every well-formed table with at least one count: the Brier score, the Brier skill score
and the resolution raise AttributeError. -/
theorem C55_brier_raises (t : Table) (ps : List PctBin) (D : PctData t ps)
    (hpos : 0 < events (pooledBins ps) + nonEvents (pooledBins ps)) :
    pstdBrier t = .error .attributeError ∧ pstdBssSmpl t = .error .attributeError ∧
      pstdResolution t = .error .attributeError := by
  obtain ⟨c, hf⟩ : ∃ c, oBarCell t = .ok c := by
    unfold oBarCell
    have hne := D.rows_ne
    cases hr : t.rows with
    | nil => exact absurd hr hne
    | cons r rest => cases t.colIdx? "o_bar" <;> exact ⟨_, rfl⟩
  have ht : binsTotal ((pooledBins ps).filter (fun b => b.n ≠ 0)) ≠ 0 := by
    rw [binsTotal_filter, total_eq]; exact hpos.ne'
  refine ⟨?_, ?_, ?_⟩
  · simp only [pstdBrier, commonStats_ok D, bind, Except.bind, npDiv, if_neg ht, hf, resetIndexScalar, pstdTry]
  · simp only [pstdBssSmpl, commonStats_ok D, bind, Except.bind, npDiv, if_neg ht, hf, resetIndexScalar, pstdTry]
  · simp only [pstdResolution, commonStats_ok D, bind, Except.bind, hf, resetIndexScalar, pstdTry]

example : pstdBrier pctTable = .error .attributeError := by decide +kernel

/-- C55 (the part that holds): base rate, reliability and uncertainty are numbers in their ranges for every
well-formed table with at least one count. -/
theorem C55_parts_partial (t : Table) (ps : List PctBin) (D : PctData t ps)
    (hpos : 0 < events (pooledBins ps) + nonEvents (pooledBins ps)) :
    (∃ v, pstdBaser t = .ok (some v) ∧ 0 ≤ v ∧ v ≤ 1) ∧
    (∃ v, pstdUncertainty t = .ok (some v) ∧ 0 ≤ v ∧ v ≤ 1 / 4) ∧
    (∃ v, pstdReliability t = .ok (some v) ∧ 0 ≤ v) := by
  have hnn := pooled_nonneg D
  have ht : binsTotal ((pooledBins ps).filter (fun b => b.n ≠ 0)) =
      events (pooledBins ps) + nonEvents (pooledBins ps) := by
    rw [binsTotal_filter, total_eq]
  have he : binsEvents ((pooledBins ps).filter (fun b => b.n ≠ 0)) = events (pooledBins ps) :=
    sum_filter_ne _ _ (fun b hb hn => (empty_bin (hnn b hb) hn).1)
  have e0 : 0 ≤ events (pooledBins ps) := by
    apply sum_nonneg_q; intro x hx; obtain ⟨b, hb, rfl⟩ := List.mem_map.mp hx; exact (hnn b hb).1
  have n0 : 0 ≤ nonEvents (pooledBins ps) := by
    apply sum_nonneg_q; intro x hx; obtain ⟨b, hb, rfl⟩ := List.mem_map.mp hx; exact (hnn b hb).2
  have hr0 : 0 ≤ events (pooledBins ps) / (events (pooledBins ps) + nonEvents (pooledBins ps)) := by
    positivity
  have hr1 : events (pooledBins ps) / (events (pooledBins ps) + nonEvents (pooledBins ps)) ≤ 1 := by
    rw [div_le_one hpos]; linarith
  refine ⟨⟨_, ?_, round7_nonneg hr0, round7_le_one hr1⟩, ⟨roundHalfUp (calcUncertainty (events (pooledBins ps) /
      (events (pooledBins ps) + nonEvents (pooledBins ps)))) PRECISION, ?_, ?_, ?_⟩,
    ⟨roundHalfUp (reliabilitySum ((pooledBins ps).filter (fun b => b.n ≠ 0)) /
      (events (pooledBins ps) + nonEvents (pooledBins ps))) PRECISION, ?_, ?_⟩⟩
  · simp only [pstdBaser, commonStats_ok D, bind, Except.bind, ht, he, pyDiv, if_neg hpos.ne',
      Option.map_some, pstdTry]
  · simp only [pstdUncertainty, commonStats_ok D, bind, Except.bind, ht, he, pyDiv, if_neg hpos.ne',
      Option.map_some, pstdTry]
  · apply round7_nonneg
    unfold calcUncertainty
    exact mul_nonneg hr0 (by linarith)
  · have : roundHalfUp (1 / 4 : ℚ) PRECISION = 1 / 4 := by decide +kernel
    rw [← this]
    apply roundHalfUp_mono
    unfold calcUncertainty
    generalize events (pooledBins ps) / (events (pooledBins ps) + nonEvents (pooledBins ps)) = r
    nlinarith [sq_nonneg (r - 1 / 2)]
  · simp only [pstdReliability, commonStats_ok D, bind, Except.bind, ht, calcReliability, pyDiv,
      if_neg hpos.ne', Option.map_some, pstdTry]
  · apply round7_nonneg
    apply div_nonneg _ hpos.le
    apply sum_nonneg_q
    intro x hx
    obtain ⟨b, hb, rfl⟩ := List.mem_map.mp hx
    have hb' := hnn b (List.mem_of_mem_filter hb)
    have : 0 ≤ b.n := add_nonneg hb'.1 hb'.2
    rw [mul_assoc]
    exact mul_nonneg this (mul_self_nonneg _)

/-! ### C74 -/

/-- C55: tables with different numbers of threshold, event and non-event columns are refused: no statistic has a
value. -/
theorem C55_unequal_columns (t : Table)
    (h : (threshNames t.cols).length ≠ (oyNames t.cols).length ∨
      (threshNames t.cols).length ≠ (onNames t.cols).length) :
    (∀ v, pstdRocAuc t ≠ .ok v) ∧ (∀ v, pstdBaser t ≠ .ok (some v)) ∧ (∀ v, pstdReliability t ≠ .ok (some v)) ∧
    (∀ v, pstdUncertainty t ≠ .ok (some v)) := by
  have hc : ∃ e, commonStats t = .error e := by
    unfold commonStats
    cases hm : (threshNames t.cols).mapM (firstCell t) with
    | error e => exact ⟨e, rfl⟩
    | ok thc =>
      have hl : thc.length = (threshNames t.cols).length := by
        have : ∀ (l : List String) (r : List Cell), l.mapM (firstCell t) = .ok r → r.length = l.length := by
          intro l
          induction l with
          | nil => intro r hr; simp [pure, Except.pure] at hr; simp [← hr]
          | cons a l ih =>
            intro r hr
            rw [List.mapM_cons] at hr
            cases e1 : firstCell t a with
            | error e => rw [e1] at hr; simp [bind, Except.bind] at hr
            | ok x =>
              cases e2 : l.mapM (firstCell t) with
              | error e => rw [e1, e2] at hr; simp [bind, Except.bind] at hr
              | ok r' =>
                rw [e1, e2] at hr
                simp [bind, Except.bind, pure, Except.pure] at hr
                rw [← hr, List.length_cons, List.length_cons, ih r' e2]
        exact this _ _ hm
      refine ⟨.valueError, ?_⟩
      simp only [bind, Except.bind, List.length_map, hl]
      rw [if_pos h]
  obtain ⟨e, he⟩ := hc
  refine ⟨fun v hv => ?_, fun v hv => ?_, fun v hv => ?_, fun v hv => ?_⟩
  · simp [pstdRocAuc, he, bind, Except.bind] at hv
  · simp only [pstdBaser, he, bind, Except.bind] at hv
    revert hv; cases e <;> simp [pstdTry]
  · simp only [pstdReliability, he, bind, Except.bind] at hv
    revert hv; cases e <;> simp [pstdTry]
  · simp only [pstdUncertainty, he, bind, Except.bind] at hv
    revert hv; cases e <;> simp [pstdTry]

example : (threshNames ["thresh_i", "oy_i", "on_i", "thresh_i2"]).length ≠
    (oyNames ["thresh_i", "oy_i", "on_i", "thresh_i2"]).length := by decide

/-- C74: for every list of non-empty bins, the parts calculated by calc_reliability, calc_resolution and
calc_uncertainty with the overall base rate combine to the Brier score, the mean squared difference between
probability and outcome. -/
theorem C74_brier_decomposition (bs : List Bin) (h : ∀ b ∈ bs, b.n ≠ 0) (hT : binsTotal bs ≠ 0) :
    ∃ rel res, calcReliability (binsTotal bs) bs = some rel ∧
      calcResolution (binsTotal bs) bs (binsEvents bs / binsTotal bs) = some res ∧
      rel - res + calcUncertainty (binsEvents bs / binsTotal bs) = brierScore bs := by
  refine ⟨_, _, by rw [calcReliability, pyDiv, if_neg hT], by rw [calcResolution, pyDiv, if_neg hT], ?_⟩
  have hT2 : binsTotal bs = events bs + nonEvents bs := total_eq bs
  have key : ∀ o : ℚ, reliabilitySum bs - resolutionSum bs o =
      (bs.map (fun b => b.oy * (b.thresh - 1) ^ 2 + b.on * b.thresh ^ 2)).sum - binsEvents bs +
        2 * o * binsEvents bs - o ^ 2 * binsTotal bs := by
    intro o
    have : ∀ b ∈ bs, b.n * (b.thresh - b.oy / b.n) * (b.thresh - b.oy / b.n) -
        b.n * (b.oy / b.n - o) * (b.oy / b.n - o) =
        (b.oy * (b.thresh - 1) ^ 2 + b.on * b.thresh ^ 2) - b.oy + 2 * o * b.oy - o ^ 2 * b.n := by
      intro b hb
      have hb := h b hb
      have e : b.n * (b.oy / b.n) = b.oy := mul_div_cancel₀ _ hb
      generalize b.oy / b.n = r at *
      have hn : b.n = b.oy + b.on := rfl
      have hon : b.on = b.n - b.oy := by rw [hn]; ring
      rw [hon, ← e]
      ring
    unfold reliabilitySum resolutionSum binsEvents binsTotal
    rw [← sum_map_mul_left', ← sum_map_mul_left', ← sum_map_sub', ← sum_map_sub', ← sum_map_add',
      ← sum_map_sub']
    congr 1
    exact List.map_congr_left this
  have hk := key (binsEvents bs / binsTotal bs)
  unfold brierScore calcUncertainty
  rw [← hT2]
  have e : binsEvents bs / binsTotal bs * binsTotal bs = binsEvents bs := div_mul_cancel₀ _ hT
  rw [div_sub_div_same, hk]
  generalize binsEvents bs = e1 at *
  generalize (bs.map (fun b => b.oy * (b.thresh - 1) ^ 2 + b.on * b.thresh ^ 2)).sum = S at *
  field_simp
  ring

example : ∀ b ∈ (pooledBins pctBins).filter (fun b => b.n ≠ 0), b.n ≠ 0 := by decide +kernel
example : brierScore (pooledBins pctBins) = 37 / 200 := by decide +kernel

end Metcalcpy.Props
