/-
The rows of single groups computed by run_Calc_Blocks.
-/
import Verif.Lemmas.CircularRuns2
import Verif.Spec.Blocks
import Verif.Props.C125_Blocking

namespace Metcalcpy.Props
open Metcalcpy Spec

theorem pyIndex_360 (z : ℤ) (h1 : -360 ≤ z) (h2 : z < 360) : pyIndex 360 z = .ok (z % 360).toNat := by
  unfold pyIndex
  by_cases h : 0 ≤ z
  · rw [if_pos ⟨h, by omega⟩, show z % 360 = z by omega]
  · rw [if_neg (by omega), if_pos ⟨by omega, by omega⟩]
    rw [show z % 360 = 360 + z by omega]
    rfl

theorem degrees_length : degrees.length = 360 := by unfold degrees; rw [List.length_map, List.length_range]

theorem degrees_getD {k : ℕ} (h : k < 360) : degrees.getD k 0 = (k : ℚ) := by
  unfold degrees
  rw [List.getD_eq_getElem?_getD, List.getElem?_map, List.getElem?_range h]
  rfl

/-- Row with ones at the `N` longitudes up to `e`. -/
def endRow (e N : ℕ) : List ℚ := (List.range 360).map fun j => if (e + 360 - j) % 360 < N then 1 else 0

theorem markOnes_row (idx : List ℤ) (h : ∀ z ∈ idx, -360 ≤ z ∧ z < 360) (e N : ℕ)
    (hm : ∀ j : ℕ, j < 360 → ((∃ z ∈ idx, (z % 360).toNat = j) ↔ (e + 360 - j) % 360 < N)) :
    markOnes 360 idx = .ok (endRow e N) := by
  unfold markOnes
  rw [mapM_ok_of (pyIndex 360) (fun z => (z % 360).toNat) idx (fun z hz => pyIndex_360 z (h z hz).1 (h z hz).2)]
  show Except.ok _ = Except.ok _
  congr 1
  unfold endRow
  apply List.map_congr_left
  intro j hj
  have hj : j < 360 := by simpa using hj
  have := hm j hj
  by_cases hh : (e + 360 - j) % 360 < N
  · rw [if_pos hh, if_pos]
    rw [List.mem_map]
    exact this.mpr hh
  · rw [if_neg hh, if_neg]
    rw [List.mem_map]
    exact fun h => hh (this.mp h)

theorem mem_intRange {lo hi z : ℤ} : z ∈ intRange lo hi ↔ lo ≤ z ∧ z < hi := by
  unfold intRange
  rw [List.mem_map]
  constructor
  · rintro ⟨k, hk, rfl⟩
    rw [List.mem_range] at hk
    omega
  · rintro ⟨h1, h2⟩
    exact ⟨(z - lo).toNat, by rw [List.mem_range]; omega, by omega⟩

theorem truncRange_nat (m : ℕ) (hm : m ≤ 360) : truncRange (m : ℚ) 360 = intRange m 360 := by
  unfold truncRange intRange
  have e : ⌈((360 : ℕ) : ℚ) - (m : ℚ)⌉ = (360 : ℤ) - m := by
    rw [show ((360 : ℕ) : ℚ) - (m : ℚ) = (((360 : ℤ) - m : ℤ) : ℚ) by push_cast; ring, Int.ceil_intCast]
  rw [e]
  apply List.map_congr_left
  intro k _
  unfold truncInt
  rw [if_pos (by positivity)]
  rw [show (m : ℚ) + (k : ℚ) = (((m : ℤ) + (k : ℤ) : ℤ) : ℚ) by push_cast; ring, Int.floor_intCast]

theorem groupLons_row (a : List ℚ) (e s : ℕ) (prev : Option (List ℤ)) (he : e < 360)
    (hN : (runCounts a).getD e 0 < 360) (h1 : 1 ≤ (runCounts a).getD e 0)
    (hs : s < e ∨ (e < s ∧ (runCounts a).getD e 0 ≥ e + 2)) :
    ∃ idx, groupLons degrees a e s prev = .ok (some idx) ∧
      markOnes 360 idx = .ok (endRow e ((runCounts a).getD e 0)) := by
  unfold groupLons
  rw [degrees_length]
  generalize hc : (runCounts a).getD e 0 = N at *
  have hrange : markOnes 360 (intRange ((e : ℤ) - N + 1) (e + 1)) = .ok (endRow e N) := by
    apply markOnes_row
    · intro z hz
      rw [mem_intRange] at hz
      omega
    · intro j hj
      constructor
      · rintro ⟨z, hz, rfl⟩
        rw [mem_intRange] at hz
        omega
      · intro h
        by_cases hje : j ≤ e
        · exact ⟨j, by rw [mem_intRange]; omega, by omega⟩
        · exact ⟨(j : ℤ) - 360, by rw [mem_intRange]; omega, by omega⟩
  rcases hs with hlt | ⟨hgt, hge⟩
  · refine ⟨intRange ((e : ℤ) - N + 1) (e + 1), ?_, hrange⟩
    rw [if_neg (by omega)]
    show Except.ok _ = Except.ok _
    rw [if_pos hlt]
  · rw [if_pos hgt, pyIndex_360 _ (by omega) (by omega)]
    by_cases h200 : a.getD (360 - 1) 0 = 1 ∧ 200 < e
    · refine ⟨intRange ((e : ℤ) - N + 1) (e + 1), ?_, hrange⟩
      show Except.ok _ = Except.ok _
      rw [if_neg (by omega), if_pos h200]
    · refine ⟨intRange 0 ((e : ℤ) + 1) ++ intRange ((e : ℤ) - N + 361) 360, ?_, ?_⟩
      · show Except.ok _ = Except.ok _
        rw [if_neg (by omega), if_neg h200]
        rw [degrees_getD (by omega), truncRange_nat _ (by omega)]
        rw [show (((((e : ℤ) - N + 1) % 360).toNat : ℕ) : ℤ) = (e : ℤ) - N + 361 by omega]
      · apply markOnes_row
        · intro z hz
          rw [List.mem_append, mem_intRange, mem_intRange] at hz
          omega
        · intro j hj
          constructor
          · rintro ⟨z, hz, rfl⟩
            rw [List.mem_append, mem_intRange, mem_intRange] at hz
            omega
          · intro h
            refine ⟨j, ?_, by omega⟩
            rw [List.mem_append, mem_intRange, mem_intRange]
            omega

theorem splitLoop_day (lon : List ℚ) (d : GiblDay) (R : ℕ → List ℚ) (ds : List GiblDay) (mx mi : List ℕ)
    (rest : List GiblDay) (hrest : ∀ prev, splitLoop lon prev ds mx mi = .ok rest) (E : List ℕ) :
    ∀ S : List ℕ, S.length = E.length →
    (∀ i e s : ℕ, E[i]? = some e → S[i]? = some s → ∀ prev, ∃ idx, groupLons lon d.row e s prev = .ok (some idx) ∧
      markOnes lon.length idx = .ok (R e)) →
    ∀ prev, splitLoop lon prev ((E.map fun _ => d) ++ ds) (E ++ mx) (S ++ mi) =
      .ok ((E.map fun e => { d with row := R e }) ++ rest) := by
  induction E with
  | nil =>
    intro S hS _ prev
    have : S = [] := List.eq_nil_of_length_eq_zero (by simpa using hS)
    subst this
    exact hrest prev
  | cons e E ih =>
    intro S hS H prev
    cases S with
    | nil => simp at hS
    | cons s S =>
      obtain ⟨idx, h1, h2⟩ := H 0 e s rfl rfl prev
      have := ih S (by simpa using hS) (fun i e' s' he hs => H (i + 1) e' s' (by simpa using he) (by simpa using hs)) (some idx)
      simp only [List.map_cons, List.cons_append, splitLoop]
      rw [h1]
      simp only [bind, Except.bind]
      rw [h2]
      simp only
      rw [this]

theorem splitLoop_days (lon : List ℚ) (days : List GiblDay) (E S : GiblDay → List ℕ) (R : GiblDay → ℕ → List ℚ)
    (hlen : ∀ d ∈ days, (S d).length = (E d).length)
    (hrow : ∀ d ∈ days, ∀ i e s : ℕ, (E d)[i]? = some e → (S d)[i]? = some s → ∀ prev, ∃ idx,
      groupLons lon d.row e s prev = .ok (some idx) ∧ markOnes lon.length idx = .ok (R d e)) :
    ∀ prev, splitLoop lon prev (days.flatMap fun d => (E d).map fun _ => d) (days.flatMap E) (days.flatMap S) =
      .ok (days.flatMap fun d => (E d).map fun e => { d with row := R d e }) := by
  induction days with
  | nil => intro prev; rfl
  | cons d days ih =>
    intro prev
    simp only [List.flatMap_cons]
    exact splitLoop_day lon d (R d) _ _ _ _
      (ih (fun d hd => hlen d (List.mem_cons_of_mem _ hd)) (fun d hd => hrow d (List.mem_cons_of_mem _ hd)))
      (E d) (S d) (hlen d (by simp)) (hrow d (by simp)) prev

/-- The run that ends at `e`. -/
theorem run_of_end (a : List ℚ) (ha : a.length = 360) (hz : ∃ z, ¬ BlockedAt a z) (e : ℤ)
    (h0 : around360 (runCounts a) e ≠ 0) (h1 : around360 (runCounts a) (e + 1) = 0) :
    IsRun a ((e - around360 (runCounts a) e + 1) % 360).toNat (around360 (runCounts a) e) := by
  have hb : BlockedAt a e := by
    by_contra hb; exact h0 ((counts_zero_iff a ha hz e).mpr hb)
  obtain ⟨n1, n2, n3⟩ := (counts_spec a ha hz e).2 hb
  have hfree := (counts_zero_iff a ha hz (e + 1)).mp h1
  set N := around360 (runCounts a) e
  have hmod : ∀ w : ℤ, BlockedAt a ((((e - N + 1) % 360).toNat : ℕ) + w) ↔ BlockedAt a (e - N + 1 + w) := fun w => by
    unfold BlockedAt
    rw [show (((((e - N + 1) % 360).toNat : ℕ) : ℤ) + w) % 360 = (e - N + 1 + w) % 360 by omega]
  refine ⟨n1, by omega, fun k hk => ?_, fun h => ?_, fun h => ?_⟩
  · rw [hmod]
    have := n2 (N - 1 - k) (by omega)
    rw [show e - ((N - 1 - k : ℕ) : ℤ) = e - N + 1 + k by omega] at this
    exact this
  · rw [show (((((e - N + 1) % 360).toNat : ℕ) : ℤ)) - 1 = ((((e - N + 1) % 360).toNat : ℕ) : ℤ) + (-1) by ring, hmod] at h
    rw [show e - (N : ℤ) + 1 + -1 = e - N by ring] at h
    exact n3 h
  · rw [hmod] at h
    rw [show e - (N : ℤ) + 1 + N = e + 1 by ring] at h
    exact hfree h

/-- Every run has an end. -/
theorem end_of_run (a : List ℚ) (ha : a.length = 360) (hz : ∃ z, ¬ BlockedAt a z) (s n : ℕ) (hr : IsRun a s n) :
    around360 (runCounts a) ((s : ℤ) + n - 1) = n ∧ around360 (runCounts a) ((s : ℤ) + n - 1 + 1) = 0 := by
  have hb : BlockedAt a ((s : ℤ) + n - 1) := by
    have := hr.blocked (n - 1) (by have := hr.pos; omega)
    rw [show (s : ℤ) + ((n - 1 : ℕ) : ℤ) = s + n - 1 by have := hr.pos; omega] at this
    exact this
  obtain ⟨n1, n2, n3⟩ := (counts_spec a ha hz _).2 hb
  set N := around360 (runCounts a) ((s : ℤ) + n - 1)
  constructor
  · rcases lt_trichotomy N n with h | h | h
    · exfalso
      apply n3
      have := hr.blocked (n - 1 - N) (by have := hr.pos; omega)
      rw [show (s : ℤ) + ((n - 1 - N : ℕ) : ℤ) = s + n - 1 - N by omega] at this
      exact this
    · exact h
    · exfalso
      apply hr.before
      have := n2 n h
      rw [show (s : ℤ) + n - 1 - n = s - 1 by ring] at this
      exact this
  · rw [counts_zero_iff a ha hz]
    rw [show (s : ℤ) + n - 1 + 1 = s + n by ring]
    exact hr.after

theorem endRow_eq_runRow (e N : ℕ) (he : e < 360) (h1 : 1 ≤ N) (h2 : N < 360) :
    endRow e N = runRow (((e : ℤ) - N + 1) % 360).toNat N := by
  unfold endRow runRow
  apply List.map_congr_left
  intro j hj
  have hj : j < 360 := by simpa using hj
  have : (e + 360 - j) % 360 < N ↔ (j + 360 - (((e : ℤ) - N + 1) % 360).toNat) % 360 < N := by omega
  by_cases h : (e + 360 - j) % 360 < N
  · rw [if_pos h, if_pos (this.mp h)]
  · rw [if_neg h, if_neg (fun h' => h (this.mpr h'))]

/-- The ends of the groups of a row. -/
def rowEnds (a : List ℚ) : List ℕ := (List.range 360).filter (endAt (runCounts a))

/-- The groups of one day. -/
def dayGroups (d : GiblDay) : List GiblDay :=
  (rowEnds d.row).map fun e => { d with row := endRow e ((runCounts d.row).getD e 0) }

theorem rowEnds_mem (a : List ℚ) (e : ℕ) : e ∈ rowEnds a ↔
    e < 360 ∧ around360 (runCounts a) e ≠ 0 ∧ around360 (runCounts a) ((e : ℤ) + 1) = 0 := by
  unfold rowEnds endAt
  rw [List.mem_filter, List.mem_range, decide_eq_true_eq]

theorem splitGroups_eq (crit : ℕ) (hc : 2 ≤ crit) (g : List (List (List ℚ)))
    (hg : ∀ d ∈ giblDays g, GoodDay crit d.row) :
    splitGroups crit degrees g = .ok ((giblDays g).flatMap dayGroups) := by
  have hcirc : ∀ d ∈ giblDays g, CircCount (runCounts d.row) := fun d hd =>
    counts_circ d.row (hg d hd).length (hg d hd).free
  have hlong : ∀ d ∈ giblDays g, ∀ z, around360 (runCounts d.row) z ≠ 0 → around360 (runCounts d.row) (z + 1) = 0 →
      crit ≤ around360 (runCounts d.row) z := fun d hd z h0 h1 =>
    (hg d hd).long _ _ (run_of_end d.row (hg d hd).length (hg d hd).free z h0 h1)
  have hS : ∀ d ∈ giblDays g, ∃ S, runStarts (runCounts d.row) = .ok S ∧
      S.length = (localMaxima (runCounts d.row)).length ∧ ∀ i e s : ℕ, (localMaxima (runCounts d.row))[i]? = some e →
        S[i]? = some s → around360 (runCounts d.row) e ≠ 1 →
        (s < e ∨ (e < s ∧ around360 (runCounts d.row) e ≥ e + 2)) := fun d hd => (hcirc d hd).starts
  classical
  let S : GiblDay → List ℕ := fun d => if h : d ∈ giblDays g then (hS d h).choose else []
  have hSs : ∀ d (hd : d ∈ giblDays g), S d = (hS d hd).choose := fun d hd => by simp only [S, dif_pos hd]
  unfold splitGroups
  simp only
  rw [mapM_ok_of _ S (giblDays g) (fun d hd => by rw [hSs d hd]; exact (hS d hd).choose_spec.1)]
  show splitLoop degrees none _ _ _ = _
  rw [← List.flatMap_def]
  have hmax : ∀ d ∈ giblDays g, localMaxima (runCounts d.row) = rowEnds d.row := fun d hd => (hcirc d hd).localMaxima_eq
  have hcrit : critDays (crit : ℤ) (giblDays g) = (giblDays g).flatMap fun d => (rowEnds d.row).map fun _ => d := by
    unfold critDays
    apply List.flatMap_congr
    intro d hd
    rw [List.map_const', List.map_const']
    congr 1
    unfold rowEnds
    rw [length_filter_range, length_filter_range, ← (hcirc d hd).count_crit crit (hlong d hd) (by omega)]
    rw [(hg d hd).length]
    have hcg : ∀ n ≤ 360, Nat.count (fun j => decide (((runCounts d.row).getD j 0 : ℤ) = crit) = true) n =
        Nat.count (fun j : ℕ => around360 (runCounts d.row) j = crit) n := by
      intro n
      induction n with
      | zero => intro _; simp
      | succ n ih =>
        intro hn
        rw [Nat.count_succ, Nat.count_succ, ih (by omega), around360_nat _ (by omega : n < 360)]
        simp only [decide_eq_true_eq, Nat.cast_inj]
    exact hcg 360 le_rfl
  have hends : (giblDays g).flatMap (fun d => localMaxima (runCounts d.row)) = (giblDays g).flatMap fun d => rowEnds d.row :=
    List.flatMap_congr hmax
  rw [hcrit, hends]
  exact splitLoop_days degrees (giblDays g) (fun d => rowEnds d.row) S (fun d e => endRow e ((runCounts d.row).getD e 0))
    (fun d hd => by rw [hSs d hd, (hS d hd).choose_spec.2.1, hmax d hd])
    (fun d hd i e s he hs prev => by
      have hem := (rowEnds_mem d.row e).mp (List.mem_of_getElem? he)
      have hc' := hlong d hd e hem.2.1 hem.2.2
      have hlt := (hcirc d hd).lt e
      have hrel := (hS d hd).choose_spec.2.2 i e s (by rw [hmax d hd]; exact he) (by rw [← hSs d hd]; exact hs) (by omega)
      rw [around360_nat _ hem.1] at hc' hlt hrel
      rw [degrees_length]
      exact groupLons_row d.row e s prev hem.1 hlt (by omega) hrel) none

end Metcalcpy.Props
