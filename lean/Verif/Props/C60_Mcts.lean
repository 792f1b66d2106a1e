/-
C60  Multi-category HSS_EC equals its textbook form, is 1 for a perfect forecast and never above 1.
-/
import Verif.Model.Mcts
import Verif.Spec.Mcts
import Verif.Props.C14_Pstd

namespace Metcalcpy.Props
open Metcalcpy Spec

/-- Entry of a table of numbers. -/
def ent (q : List (List ℚ)) (i j : ℕ) : ℚ := (q.getD i []).getD j 0

def setEnt (q : List (List ℚ)) (i j : ℕ) (v : ℚ) : List (List ℚ) := q.set i ((q.getD i []).set j v)

theorem sum_set_q (l : List ℚ) (j : ℕ) (v : ℚ) (hj : j < l.length) :
    (l.set j v).sum = l.sum - l.getD j 0 + v := by
  induction l generalizing j with
  | nil => simp at hj
  | cons x l ih =>
    cases j with
    | zero => simp [add_comm]
    | succ j =>
      have := ih j (by simpa using hj)
      simp only [List.set_cons_succ, List.sum_cons, this, List.getD_cons_succ]; ring

theorem sum_flatten_set (q : List (List ℚ)) (i : ℕ) (r : List ℚ) (hi : i < q.length) :
    (q.set i r).flatten.sum = q.flatten.sum - (q.getD i []).sum + r.sum := by
  induction q generalizing i with
  | nil => simp at hi
  | cons x q ih =>
    cases i with
    | zero => simp [add_comm]
    | succ i =>
      have := ih i (by simpa using hi)
      simp only [List.set_cons_succ, List.flatten_cons, List.sum_append, this, List.getD_cons_succ]; ring

theorem getD_set_self {α : Type} (l : List α) (i : ℕ) (a d : α) (hi : i < l.length) :
    (l.set i a).getD i d = a := by simp [List.getD, hi]

theorem getD_set_ne {α : Type} (l : List α) (i j : ℕ) (a d : α) (h : i ≠ j) :
    (l.set i a).getD j d = l.getD j d := by simp [List.getD, List.getElem?_set_ne h]

/-- Square table of numbers. -/
def Square (n : ℕ) (q : List (List ℚ)) : Prop := q.length = n ∧ ∀ i < n, (q.getD i []).length = n

theorem square_set {n : ℕ} {q : List (List ℚ)} (hq : Square n q) {i j : ℕ} (hi : i < n) (v : ℚ) :
    Square n (setEnt q i j v) := by
  refine ⟨by rw [setEnt, List.length_set, hq.1], fun i' hi' => ?_⟩
  unfold setEnt
  by_cases h : i = i'
  · subst h; rw [getD_set_self _ _ _ _ (by rw [hq.1]; exact hi), List.length_set, hq.2 _ hi]
  · rw [getD_set_ne _ _ _ _ _ h, hq.2 _ hi']

theorem ent_set {n : ℕ} {q : List (List ℚ)} (hq : Square n q) {i j : ℕ} (hi : i < n) (hj : j < n) (v : ℚ)
    (i' j' : ℕ) : ent (setEnt q i j v) i' j' = if i = i' ∧ j = j' then v else ent q i' j' := by
  unfold ent setEnt
  by_cases h : i = i'
  · subst h
    rw [getD_set_self _ _ _ _ (by rw [hq.1]; exact hi)]
    by_cases h2 : j = j'
    · subst h2
      rw [getD_set_self _ _ _ _ (by rw [hq.2 _ hi]; exact hj)]; simp
    · rw [getD_set_ne _ _ _ _ _ h2]; simp [h2]
  · rw [getD_set_ne _ _ _ _ _ h]; simp [h]

theorem total_set {n : ℕ} {q : List (List ℚ)} (hq : Square n q) {i j : ℕ} (hi : i < n) (hj : j < n) (v : ℚ) :
    (setEnt q i j v).flatten.sum = q.flatten.sum - ent q i j + v := by
  unfold setEnt ent
  rw [sum_flatten_set _ _ _ (by rw [hq.1]; exact hi), sum_set_q _ _ _ (by rw [hq.2 _ hi]; exact hj)]
  ring

def diagOf (n : ℕ) (q : List (List ℚ)) : ℚ := ((List.range n).map (fun i => ent q i i)).sum

theorem sum_range_ite (n i : ℕ) (x : ℚ) (hi : i < n) :
    ((List.range n).map (fun i' => if i = i' then x else 0)).sum = x := by
  induction n with
  | zero => omega
  | succ n ih =>
    rw [List.range_succ, List.map_append, List.sum_append]
    by_cases h : i = n
    · subst h
      have : ((List.range i).map (fun i' => if i = i' then x else 0)).sum = 0 := by
        apply List.sum_eq_zero
        intro y hy
        obtain ⟨k, hk, rfl⟩ := List.mem_map.mp hy
        rw [List.mem_range] at hk
        rw [if_neg (by omega)]
      simp [this]
    · rw [ih (by omega)]; simp [h]

theorem diag_set {n : ℕ} {q : List (List ℚ)} (hq : Square n q) {i j : ℕ} (hi : i < n) (hj : j < n) (v : ℚ) :
    diagOf n (setEnt q i j v) = diagOf n q + (if i = j then v - ent q i j else 0) := by
  unfold diagOf
  by_cases h : i = j
  · subst h
    have e : (List.range n).map (fun k => ent (setEnt q i i v) k k) =
        (List.range n).map (fun k => ent q k k + (if i = k then v - ent q i i else 0)) := by
      apply List.map_congr_left
      intro k _
      rw [ent_set hq hi hj]
      by_cases hk : i = k
      · subst hk; simp
      · simp [hk]
    rw [e, sum_map_add', sum_range_ite n i _ hi, if_pos rfl]
  · have e : (List.range n).map (fun k => ent (setEnt q i j v) k k) =
        (List.range n).map (fun k => ent q k k) := by
      apply List.map_congr_left
      intro k _
      rw [ent_set hq hi hj, if_neg (by omega)]
    rw [e, if_neg h, add_zero]

/-! ### Filling the table -/

def lift (q : List (List ℚ)) : List (List Cell) := q.map (fun r => r.map some)

theorem lift_set (q : List (List ℚ)) (i j : ℕ) (v : ℚ) :
    (lift q).set i (((lift q).getD i []).set j (some v)) = lift (setEnt q i j v) := by
  unfold lift setEnt
  rw [List.map_set, List.map_set]
  congr 2
  simp only [List.getD, List.getElem?_map]
  cases q[i]? <;> simp

theorem needInt_succ (m : ℕ) : needInt (some ((m : ℚ) + 1)) = .ok ((m : ℤ) + 1) := by
  have : ((m : ℚ) + 1) = (((m : ℤ) + 1 : ℤ) : ℚ) := by push_cast; rfl
  rw [needInt, this, Rat.den_intCast, if_pos rfl, Rat.num_intCast]

theorem pyIndex_ok {n m : ℕ} (h : m < n) : pyIndex n ((m : ℤ) + 1 - 1) = .ok m := by
  unfold pyIndex
  rw [if_pos (by constructor <;> omega)]
  congr 1
  omega

def fillAll (cells : List CatCell) (q : List (List ℚ)) : List (List ℚ) :=
  cells.foldl (fun q c => setEnt q c.fcst c.obs c.total) q

theorem fill_loop {t : Table} {n : ℕ} {ec : ℚ} {cells : List CatCell} (D : MctcData t n ec cells) :
    ∀ (rest : List CatCell) (k : ℕ) (q : List (List ℚ)), (cells.drop k = rest) →
      (List.range' k rest.length).foldlM (fillCell t n (cells.map (fun c => some c.total))) (lift q) =
        .ok (lift (fillAll rest q)) := by
  intro rest
  induction rest with
  | nil => intro k q _; rfl
  | cons c rest ih =>
    intro k q hk
    have hck : cells[k]? = some c := by
      have := List.getElem?_drop (xs := cells) (i := k) (j := 0)
      rw [hk] at this; simpa using this.symm
    have hcm : c ∈ cells := List.mem_of_getElem? hck
    obtain ⟨_, hi⟩ := D.i_value k c hck
    obtain ⟨_, hj⟩ := D.j_value k c hck
    have hb := D.bounds c hcm
    have hs : (cells.map (fun c => some c.total)).getD k none = some c.total := by
      simp [List.getD, hck]
    have hstep : fillCell t n (cells.map (fun c => some c.total)) (lift q) k =
        .ok (lift (setEnt q c.fcst c.obs c.total)) := by
      simp only [fillCell, firstCell_ok hi, firstCell_ok hj, bind, Except.bind, needInt_succ,
        pyIndex_ok hb.1, pyIndex_ok hb.2, hs, lift_set]
    rw [List.length_cons, List.range'_succ, List.foldlM_cons, hstep]
    have := ih (k + 1) (setEnt q c.fcst c.obs c.total) (by
      rw [← List.drop_drop, hk]; rfl)
    simpa [bind, Except.bind, fillAll] using this

theorem fillAll_sums (n : ℕ) : ∀ (cells : List CatCell) (q : List (List ℚ)), Square n q →
    (cells.map (fun c => (c.fcst, c.obs))).Nodup → (∀ c ∈ cells, c.fcst < n ∧ c.obs < n) →
    (∀ c ∈ cells, ent q c.fcst c.obs = 0) →
    Square n (fillAll cells q) ∧ (fillAll cells q).flatten.sum = q.flatten.sum + grandTotal cells ∧
      diagOf n (fillAll cells q) = diagOf n q + correctTotal cells := by
  intro cells
  induction cells with
  | nil => intro q hq _ _ _; simp [fillAll, grandTotal, correctTotal, hq]
  | cons c cells ih =>
    intro q hq hn hb h0
    rw [List.map_cons, List.nodup_cons] at hn
    have hbc := hb c (by simp)
    have := ih (setEnt q c.fcst c.obs c.total) (square_set hq hbc.1 _) hn.2
      (fun d hd => hb d (by simp [hd]))
      (by
        intro d hd
        rw [ent_set hq hbc.1 hbc.2, if_neg, h0 d (by simp [hd])]
        rintro ⟨h1, h2⟩
        exact hn.1 (List.mem_map.mpr ⟨d, hd, by rw [h1, h2]⟩))
    have z := h0 c (by simp)
    obtain ⟨a, b, d⟩ := this
    refine ⟨a, ?_, ?_⟩
    · have e : fillAll (c :: cells) q = fillAll cells (setEnt q c.fcst c.obs c.total) := rfl
      rw [e, b, total_set hq hbc.1 hbc.2, z]
      simp only [grandTotal, List.map_cons, List.sum_cons]; ring
    · have e : fillAll (c :: cells) q = fillAll cells (setEnt q c.fcst c.obs c.total) := rfl
      rw [e, d, diag_set hq hbc.1 hbc.2, z]
      unfold correctTotal
      by_cases h : c.fcst = c.obs
      · rw [if_pos h, List.filter_cons_of_pos (by simp [h]), List.map_cons, List.sum_cons]; ring
      · rw [if_neg h, List.filter_cons_of_neg (by simp [h])]; ring

theorem filterMap_diag (n i : ℕ) (hi : i < n) (g : ℕ → Cell) :
    (List.range n).filterMap (fun j => if i = j then some (g j) else none) = [g i] := by
  induction n with
  | zero => omega
  | succ n ih =>
    rw [List.range_succ, List.filterMap_append]
    by_cases h : i = n
    · subst h
      have : (List.range i).filterMap (fun j => if i = j then some (g j) else none) = [] := by
        rw [List.filterMap_eq_nil_iff]
        intro j hj
        rw [List.mem_range] at hj
        rw [if_neg (by omega)]
      simp [this]
    · rw [ih (by omega)]; simp [h]

theorem sumCells_diag {n : ℕ} {q : List (List ℚ)} (hq : Square n q) :
    sumCells ((List.range n).flatMap (fun i => (List.range n).filterMap (fun j =>
      if i = j then some (((lift q).getD i []).getD j none) else none))) = .ok (diagOf n q) := by
  have e : (List.range n).flatMap (fun i => (List.range n).filterMap (fun j =>
      if i = j then some (((lift q).getD i []).getD j none) else none)) =
      ((List.range n).map (fun i => ent q i i)).map some := by
    rw [List.flatMap_def, List.map_map]
    have : ∀ i ∈ List.range n, (List.range n).filterMap (fun j =>
        if i = j then some (((lift q).getD i []).getD j none) else none) = [some (ent q i i)] := by
      intro i hi
      rw [List.mem_range] at hi
      rw [filterMap_diag n i hi]
      have h1 : i < q.length := by rw [hq.1]; exact hi
      have h2 := hq.2 i hi
      unfold ent lift
      simp only [List.getD, List.getElem?_map] at h2 ⊢
      rw [List.getElem?_eq_getElem h1] at h2 ⊢
      simp only [Option.getD_some] at h2
      simp [h2, hi]
    rw [List.map_congr_left this]
    generalize List.range n = l
    induction l with
    | nil => rfl
    | cons x l ih => simpa using ih
  rw [e, sumCells, needNumbers_some]; rfl

theorem sumCells_flatten (q : List (List ℚ)) : sumCells (lift q).flatten = .ok q.flatten.sum := by
  have e : (lift q).flatten = q.flatten.map some := by
    unfold lift; rw [List.map_flatten]
  rw [e, sumCells, needNumbers_some]; rfl

theorem zeros_square (n : ℕ) : Square n (List.replicate n (List.replicate n 0)) := by
  refine ⟨by simp, fun i hi => by simp [List.getD, hi]⟩

theorem zeros_ent (n i j : ℕ) : ent (List.replicate n (List.replicate n 0)) i j = 0 := by
  unfold ent
  simp only [List.getD, List.getElem?_replicate]
  by_cases hi : i < n <;> by_cases hj : j < n <;> simp [hi, hj]

theorem zeros_sum (n : ℕ) : (List.replicate n (List.replicate n (0 : ℚ))).flatten.sum = 0 := by
  apply List.sum_eq_zero
  intro x hx
  obtain ⟨l, hl, hx⟩ := List.mem_flatten.mp hx
  rw [List.eq_of_mem_replicate hl] at hx
  exact List.eq_of_mem_replicate hx

theorem zeros_diag (n : ℕ) : diagOf n (List.replicate n (List.replicate n 0)) = 0 := by
  unfold diagOf
  simp only [zeros_ent]
  simp

/-- C60: HSS_EC of a table of any number of categories, with the category pairs in any column order, is
(correct - ec * total) / (total - ec * total), rounded to 7 digits; missing when the divisor is 0. -/
theorem C60_hss_ec (t : Table) (n : ℕ) (ec : ℚ) (cells : List CatCell) (D : MctcData t n ec cells) :
    mctsHssEc t = .ok (if grandTotal cells - ec * grandTotal cells = 0 then none
      else some (roundHalfUp ((correctTotal cells - ec * grandTotal cells) /
        (grandTotal cells - ec * grandTotal cells)) 7)) := by
  obtain ⟨_, hn⟩ := D.n_cat
  obtain ⟨_, he⟩ := D.ec_value
  have hsums : (List.range (n * n)).mapM (fiojSum t) = .ok (cells.map (fun c => some c.total)) := by
    have e : cells.map (fun c => some c.total) = (List.range (n * n)).map (fun k =>
        ((cells[k]?).map (fun c => some c.total)).getD none) := by
      apply List.ext_getElem?
      intro k
      rw [List.getElem?_map, List.getElem?_map]
      by_cases hk : k < n * n
      · have hk' : k < cells.length := by rw [D.length]; exact hk
        rw [List.getElem?_range hk]
        simp [hk']
      · have hk' : cells[k]? = none := by
          rw [List.getElem?_eq_none_iff, D.length]; omega
        have hr : (List.range (n * n))[k]? = none := by
          rw [List.getElem?_eq_none_iff, List.length_range]; omega
        rw [hk', hr]; rfl
    rw [e]
    apply mapM_except_ok
    intro k hk
    rw [List.mem_range] at hk
    have hk' : k < cells.length := by rw [D.length]; exact hk
    have hc := D.fi_oj k cells[k] (List.getElem?_eq_getElem hk')
    have hl := IsColumn.length hc
    rw [List.length_map] at hl
    obtain ⟨x, xs, hx⟩ : ∃ x xs, cells[k].counts = x :: xs := by
      cases h : cells[k].counts with
      | nil => rw [h] at hl; exact absurd (List.eq_nil_of_length_eq_zero hl.symm) D.rows_ne
      | cons x xs => exact ⟨x, xs, rfl⟩
    have hf : firstCell t ("fi_oj_" ++ toString k) = .ok (some x) :=
      firstCell_ok (rest := xs.map some) (by
        have := hc; unfold CompleteColumn at this; rw [hx] at this; exact this)
    simp only [fiojSum, hf, bind, Except.bind, sumColumn_of_complete D.rows_ne hc]
    rw [List.getElem?_eq_getElem hk']
    rfl
  have hfill := fill_loop D cells 0 (List.replicate n (List.replicate n 0)) (by simp)
  rw [← List.range_eq_range', D.length] at hfill
  have hlift : lift (List.replicate n (List.replicate n 0)) =
      List.replicate n (List.replicate n (some 0)) := by
    unfold lift; rw [List.map_replicate, List.map_replicate]
  rw [hlift] at hfill
  obtain ⟨hsq, htot, hdiag⟩ := fillAll_sums n cells (List.replicate n (List.replicate n 0)) (zeros_square n)
    D.distinct D.bounds (fun c _ => zeros_ent n _ _)
  rw [zeros_sum, zero_add] at htot
  rw [zeros_diag, zero_add] at hdiag
  have hni : needInt (some (n : ℚ)) = .ok (n : ℤ) := by
    have e : (n : ℚ) = ((n : ℤ) : ℚ) := by push_cast; rfl
    rw [needInt, e, Rat.den_intCast, if_pos rfl, Rat.num_intCast]
  simp only [mctsHssEc, firstCell_ok hn, firstCell_ok he, bind, Except.bind, hni, Int.toNat_natCast, hsums,
    hfill, sumCells_diag hsq, sumCells_flatten, hdiag, htot, needNumber]
  by_cases h : grandTotal cells - ec * grandTotal cells = 0
  · rw [if_pos h, if_pos h]; rfl
  · rw [if_neg h, if_neg h]; rfl

theorem correct_le_total (cells : List CatCell) (h : ∀ c ∈ cells, ∀ x ∈ c.counts, 0 ≤ x) :
    correctTotal cells ≤ grandTotal cells := by
  unfold correctTotal grandTotal
  induction cells with
  | nil => simp
  | cons c cells ih =>
    have ih := ih (fun d hd => h d (by simp [hd]))
    have hc : 0 ≤ c.total := sum_nonneg_q _ (h c (by simp))
    by_cases e : c.fcst = c.obs
    · rw [List.filter_cons_of_pos (by simp [e])]; simpa using ih
    · rw [List.filter_cons_of_neg (by simp [e]), List.map_cons, List.sum_cons]; linarith

/-- C60: for non-negative counts that are not all zero and ec < 1, HSS_EC is a number not above 1; and it
is exactly 1 when all wrong category pairs have zero counts. -/
theorem C60_bounds (t : Table) (n : ℕ) (ec : ℚ) (cells : List CatCell) (D : MctcData t n ec cells)
    (hec : ec < 1) (h0 : ∀ c ∈ cells, ∀ x ∈ c.counts, 0 ≤ x) (hpos : 0 < grandTotal cells) :
    ∃ v, mctsHssEc t = .ok (some v) ∧ v ≤ 1 ∧
      ((∀ c ∈ cells, c.fcst ≠ c.obs → c.total = 0) → v = 1) := by
  have hd : 0 < grandTotal cells - ec * grandTotal cells := by nlinarith
  refine ⟨_, by rw [C60_hss_ec t n ec cells D, if_neg hd.ne'], ?_, fun hp => ?_⟩
  · apply round7_le_one
    rw [div_le_one hd]
    linarith [correct_le_total cells h0]
  · have : correctTotal cells = grandTotal cells := by
      clear D h0 hpos hd
      unfold correctTotal grandTotal
      induction cells with
      | nil => simp
      | cons c cells ih =>
        have ih := ih (fun d hd => hp d (by simp [hd]))
        by_cases e : c.fcst = c.obs
        · rw [List.filter_cons_of_pos (by simp [e])]; simpa using ih
        · rw [List.filter_cons_of_neg (by simp [e]), List.map_cons, List.sum_cons, hp c (by simp) e]
          simpa using ih
    rw [this, div_self hd.ne']
    exact round7_one

/-- Two categories, two rows, pairs listed column by column. -/
def mctcTable : Table :=
  { cols := ["n_cat", "ec_value", "i_value_0", "j_value_0", "fi_oj_0", "i_value_1", "j_value_1", "fi_oj_1",
      "i_value_2", "j_value_2", "fi_oj_2", "i_value_3", "j_value_3", "fi_oj_3"]
    rows := [[some 2, some (1 / 2), some 1, some 1, some 3, some 2, some 1, some 1, some 1, some 2, some 0,
                some 2, some 2, some 4],
             [some 2, some (1 / 2), some 1, some 1, some 5, some 2, some 1, some 1, some 1, some 2, some 1,
                some 2, some 2, some 2]] }

def mctcCells : List CatCell := [⟨0, 0, [3, 5]⟩, ⟨1, 0, [1, 1]⟩, ⟨0, 1, [0, 1]⟩, ⟨1, 1, [4, 2]⟩]

theorem mctc_data : MctcData mctcTable 2 (1 / 2) mctcCells where
  rows_ne := by decide
  n_cat := ⟨[some 2], 0, by decide, by decide, by decide +kernel⟩
  ec_value := ⟨[some (1 / 2)], 1, by decide, by decide, by decide +kernel⟩
  length := by decide
  distinct := by decide
  bounds := by decide
  i_value := by
    intro k c h
    match k, h with
    | 0, h => cases h; exact ⟨[some 1], 2, by decide, by decide, by decide +kernel⟩
    | 1, h => cases h; exact ⟨[some 2], 5, by decide, by decide, by decide +kernel⟩
    | 2, h => cases h; exact ⟨[some 1], 8, by decide, by decide, by decide +kernel⟩
    | 3, h => cases h; exact ⟨[some 2], 11, by decide, by decide, by decide +kernel⟩
    | k + 4, h => simp [mctcCells] at h
  j_value := by
    intro k c h
    match k, h with
    | 0, h => cases h; exact ⟨[some 1], 3, by decide, by decide, by decide +kernel⟩
    | 1, h => cases h; exact ⟨[some 1], 6, by decide, by decide, by decide +kernel⟩
    | 2, h => cases h; exact ⟨[some 2], 9, by decide, by decide, by decide +kernel⟩
    | 3, h => cases h; exact ⟨[some 2], 12, by decide, by decide, by decide +kernel⟩
    | k + 4, h => simp [mctcCells] at h
  fi_oj := by
    intro k c h
    match k, h with
    | 0, h => cases h; exact ⟨4, by decide, by decide, by decide +kernel⟩
    | 1, h => cases h; exact ⟨7, by decide, by decide, by decide +kernel⟩
    | 2, h => cases h; exact ⟨10, by decide, by decide, by decide +kernel⟩
    | 3, h => cases h; exact ⟨13, by decide, by decide, by decide +kernel⟩
    | k + 4, h => simp [mctcCells] at h

example : mctsHssEc mctcTable = .ok (some (roundHalfUp (11 / 17) 7)) := by
  rw [C60_hss_ec _ _ _ _ mctc_data]; decide +kernel

end Metcalcpy.Props
