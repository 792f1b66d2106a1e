/-
C124  Blocked longitudes close to each other form groups around the latitude circle.
-/
import Verif.Lemmas.Gibl
import Verif.Spec.Blocking
import Mathlib.Data.Finset.Card
import Mathlib.Data.Finset.Range
import Mathlib.Order.Interval.Finset.Nat
import Mathlib.Tactic.Linarith
import Mathlib.Tactic.NormNum

namespace Metcalcpy.Props
open Metcalcpy Spec

theorem blockedAt_nat (a : List ℚ) {x : ℕ} (h : x < 360) : BlockedAt a x ↔ a[x]? = some 1 := by
  unfold BlockedAt
  rw [show ((x : ℤ) % 360).toNat = x by omega]

theorem blockedAt_shift (a : List ℚ) (z k : ℤ) : BlockedAt a (z + 360 * k) ↔ BlockedAt a z := by
  unfold BlockedAt
  rw [show (z + 360 * k) % 360 = z % 360 by omega]

theorem mem_onesOf (a : List ℚ) (ha : a.length = 360) (x : ℕ) : x ∈ onesOf a ↔ x < 360 ∧ BlockedAt a x := by
  unfold onesOf
  simp only [List.mem_filter, List.mem_range, decide_eq_true_eq, ha]
  refine and_congr_right fun h => ?_
  rw [blockedAt_nat a h, List.getD_eq_getElem?_getD, List.getElem?_eq_getElem (by omega)]
  simp

/-- The list the loop runs over. -/
def twice (l : List ℕ) : List ℕ := l ++ l.map (· + 360)

theorem mem_twice (a : List ℚ) (ha : a.length = 360) (x : ℕ) : x ∈ twice (onesOf a) ↔ x < 720 ∧ BlockedAt a x := by
  unfold twice
  simp only [List.mem_append, List.mem_map, mem_onesOf a ha]
  constructor
  · rintro (⟨h, hb⟩ | ⟨y, ⟨h, hb⟩, rfl⟩)
    · exact ⟨by omega, hb⟩
    · refine ⟨by omega, ?_⟩
      have := (blockedAt_shift a y 1).mpr hb
      push_cast at this ⊢
      simpa using this
  · rintro ⟨h, hb⟩
    by_cases hx : x < 360
    · exact .inl ⟨hx, hb⟩
    · right
      refine ⟨x - 360, ⟨by omega, ?_⟩, by omega⟩
      have := (blockedAt_shift a ((x - 360 : ℕ) : ℤ) 1)
      rw [show (((x - 360 : ℕ) : ℤ) + 360 * 1) = (x : ℤ) by omega] at this
      exact this.mp hb

theorem twice_sorted (a : List ℚ) (ha : a.length = 360) : (twice (onesOf a)).Pairwise (· < ·) := by
  unfold twice
  have h : (onesOf a).Pairwise (· < ·) := by
    unfold onesOf
    exact List.pairwise_lt_range.filter _
  rw [List.pairwise_append]
  refine ⟨h, ?_, ?_⟩
  · rw [List.pairwise_map]; exact h.imp (fun h => by omega)
  · intro x hx y hy
    obtain ⟨z, _, rfl⟩ := List.mem_map.mp hy
    have := ((mem_onesOf a ha x).mp hx).1
    omega

theorem covered_iff (a : List ℚ) (ha : a.length = 360) (crit : ℤ) (x : ℕ) :
    Covered (twice (onesOf a)) crit x ↔ InGroupTwice (BlockedAt a) crit x := by
  constructor
  · rintro ⟨lo, hi, ch, hlen, h1, h2⟩
    obtain ⟨_, hlo⟩ := (mem_twice a ha lo).mp ch.ma
    obtain ⟨hb, hhi⟩ := (mem_twice a ha hi).mp ch.mb
    refine ⟨lo, hi, ⟨by have := ch.le; omega, hlo, hhi, ?_⟩, hlen, by omega, by omega, by omega, by omega⟩
    intro s hs hls hsh
    obtain ⟨n, rfl⟩ := Int.eq_ofNat_of_zero_le (show 0 ≤ s by omega)
    obtain ⟨t, ht, h3, h4, h5⟩ := ch.linked n ((mem_twice a ha n).mpr ⟨by omega, hs⟩) (by omega) (by omega)
    exact ⟨t, ((mem_twice a ha t).mp ht).2, by omega, by omega, h5⟩
  · rintro ⟨lo, hi, g, hlen, h1, h2, h3, h4⟩
    have hle := g.le
    obtain ⟨l, rfl⟩ := Int.eq_ofNat_of_zero_le h3
    obtain ⟨h, rfl⟩ := Int.eq_ofNat_of_zero_le (show 0 ≤ hi by omega)
    refine ⟨l, h, ⟨(mem_twice a ha l).mpr ⟨by omega, g.first⟩, (mem_twice a ha h).mpr ⟨by omega, g.last⟩, by omega, ?_⟩, hlen,
      by omega, by omega⟩
    intro s hs hls hsh
    obtain ⟨t, ht, h5, h6, h7⟩ := g.linked s ((mem_twice a ha s).mp hs).2 (by omega) (by omega)
    obtain ⟨n, rfl⟩ := Int.eq_ofNat_of_zero_le (show 0 ≤ t by omega)
    exact ⟨n, (mem_twice a ha n).mpr ⟨by omega, ht⟩, by omega, by omega, h7⟩

theorem isGroup_shift (a : List ℚ) (crit lo hi k : ℤ) (g : IsBlockedGroup (BlockedAt a) crit lo hi) :
    IsBlockedGroup (BlockedAt a) crit (lo + 360 * k) (hi + 360 * k) := by
  have hle := g.le
  refine ⟨by omega, (blockedAt_shift a lo k).mpr g.first, (blockedAt_shift a hi k).mpr g.last, ?_⟩
  intro s hs h1 h2
  obtain ⟨t, ht, h3, h4, h5⟩ := g.linked (s - 360 * k) (by
    have := blockedAt_shift a (s - 360 * k) k
    rw [show s - 360 * k + 360 * k = s by omega] at this
    exact this.mp hs) (by omega) (by omega)
  exact ⟨t + 360 * k, (blockedAt_shift a t k).mpr ht, by omega, by omega, by omega⟩

/-- A group around the circle is found when the circle is read twice. -/
theorem inGroup_twice (a : List ℚ) (crit : ℤ) (hc : crit ≤ 360) (z : ℤ) (hz : 0 ≤ z ∧ z < 360) :
    InGroup (BlockedAt a) crit z ↔ InGroupTwice (BlockedAt a) crit z ∨ InGroupTwice (BlockedAt a) crit (z + 360) := by
  constructor
  · rintro ⟨lo, hi, g, hlen, h1, h2⟩
    have hle := g.le
    by_cases hgap : ∃ p, BlockedAt a p ∧ ∀ t, BlockedAt a t → p < t → crit < 2 * (t - p)
    · obtain ⟨p0, hp0, hg0⟩ := hgap
      obtain ⟨p, hp1, hp2, hp, hg⟩ : ∃ p, 0 ≤ p ∧ p < 360 ∧ BlockedAt a p ∧
          ∀ t, BlockedAt a t → p < t → crit < 2 * (t - p) := by
        refine ⟨p0 + 360 * (-(p0 / 360)), by omega, by omega, (blockedAt_shift a _ _).mpr hp0, fun t ht h => ?_⟩
        have := hg0 (t + 360 * (p0 / 360)) ((blockedAt_shift a _ _).mpr ht) (by omega)
        omega
      have hno : ∀ k : ℤ, lo ≤ p + 360 * k → ¬ p + 360 * k < hi := by
        intro k h3 h4
        obtain ⟨t, ht, h5, _, h6⟩ := g.linked _ ((blockedAt_shift a p k).mpr hp) h3 h4
        have := hg (t + 360 * (-k)) ((blockedAt_shift a _ _).mpr ht) (by omega)
        omega
      have hk := hno ((lo - p - 1) / 360 + 1) (by omega)
      have hs := isGroup_shift a crit lo hi (-((lo - p - 1) / 360)) g
      have : InGroupTwice (BlockedAt a) crit (z + 360 * (-((lo - p - 1) / 360))) :=
        ⟨_, _, hs, by omega, by omega, by omega, by omega, by omega⟩
      generalize (lo - p - 1) / 360 = k at *
      have hk01 : k = 0 ∨ k = -1 := by
        obtain ⟨l', h', _, _, _, _, _, _⟩ := this
        omega
      rcases hk01 with rfl | rfl
      · left; simpa using this
      · right; simpa using this
    · have hsucc : ∀ p, BlockedAt a p → ∃ t, BlockedAt a t ∧ p < t ∧ 2 * (t - p) ≤ crit := by
        intro p hp
        by_contra hcon
        exact hgap ⟨p, hp, fun t ht h => by
          by_contra hx
          exact hcon ⟨t, ht, h, by omega⟩⟩
      have hr : BlockedAt a (lo % 360) := by
        have := (blockedAt_shift a lo (-(lo / 360))).mpr g.first
        rwa [show lo + 360 * (-(lo / 360)) = lo % 360 by omega] at this
      have hr' : BlockedAt a (lo % 360 + 360) := by
        have := (blockedAt_shift a (lo % 360) 1).mpr hr
        simpa using this
      have hrb : 0 ≤ lo % 360 ∧ lo % 360 < 360 := by omega
      generalize lo % 360 = r at *
      have gr : IsBlockedGroup (BlockedAt a) crit r (r + 360) := by
        refine ⟨by omega, hr, hr', fun s hs h3 h4 => ?_⟩
        obtain ⟨t, ht, h5, h6⟩ := hsucc s hs
        by_cases h7 : t ≤ r + 360
        · exact ⟨t, ht, h5, h7, h6⟩
        · exact ⟨r + 360, hr', h4, le_refl _, by omega⟩
      by_cases hzr : r ≤ z
      · left; exact ⟨r, r + 360, gr, by omega, hzr, by omega, by omega, by omega⟩
      · right; exact ⟨r, r + 360, gr, by omega, by omega, by omega, by omega, by omega⟩
  · rintro (⟨lo, hi, g, hlen, h1, h2, _⟩ | ⟨lo, hi, g, hlen, h1, h2, _⟩)
    · exact ⟨lo, hi, g, hlen, h1, h2⟩
    · exact ⟨_, _, isGroup_shift a crit lo hi (-1) g, by omega, by omega, by omega⟩

open Classical in
/-- The number of longitudes covered by groups when the circle is read twice. -/
noncomputable def coveredTwice (a : List ℚ) (crit : ℤ) : ℕ :=
  ((Finset.range 720).filter fun x : ℕ => InGroupTwice (BlockedAt a) crit x).card

/-- C124, what is marked on one day: exactly the longitudes in a group around the circle, provided that the groups cover at
least twice the required number of longitudes when the circle is read twice; otherwise nothing.  Missing: a group that
straddles longitude 0 appears only once in the doubled circle and may be dropped, see the counterexample. -/
theorem C124_marked_partial (crit dist : ℤ) (a : List ℚ) (ha : a.length = 360) (hc : 2 ≤ crit) (hc' : crit ≤ 360) :
    ∃ row, giblRow crit dist a = .ok row ∧ row.length = 360 ∧ ∀ (j : ℕ), j < 360 →
      (row[j]? = some 1 ∨ row[j]? = some 0) ∧
      (row[j]? = some 1 ↔ InGroup (BlockedAt a) crit j ∧ 2 * crit ≤ coveredTwice a crit) := by
  classical
  have zerosCase : (∀ (j : ℕ), j < 360 → ¬ (InGroup (BlockedAt a) crit j ∧ 2 * crit ≤ coveredTwice a crit)) →
      ((List.range a.length).map fun _ => (0 : ℚ)).length = 360 ∧ ∀ (j : ℕ), j < 360 →
      (((List.range a.length).map fun _ => (0 : ℚ))[j]? = some 1 ∨ ((List.range a.length).map fun _ => (0 : ℚ))[j]? = some 0) ∧
      (((List.range a.length).map fun _ => (0 : ℚ))[j]? = some 1 ↔
        InGroup (BlockedAt a) crit j ∧ 2 * crit ≤ coveredTwice a crit) := by
    intro h
    refine ⟨by rw [List.length_map, List.length_range, ha], fun j hj => ?_⟩
    have : ((List.range a.length).map fun _ => (0 : ℚ))[j]? = some 0 := by
      rw [List.getElem?_map, List.getElem?_range (by omega)]; rfl
    rw [this]
    exact ⟨.inr rfl, by simp [h j hj]⟩
  unfold giblRow
  cases ho : onesOf a with
  | nil =>
    simp only
    refine ⟨_, rfl, zerosCase ?_⟩
    rintro j hj ⟨⟨lo, hi, g, _⟩, _⟩
    have h1 := (blockedAt_shift a lo (-(lo / 360))).mpr g.first
    rw [show lo + 360 * (-(lo / 360)) = lo % 360 by omega] at h1
    have : (lo % 360).toNat ∈ onesOf a := by
      rw [mem_onesOf a ha]
      refine ⟨by omega, ?_⟩
      rwa [show (((lo % 360).toNat : ℕ) : ℤ) = lo % 360 by omega]
    rw [ho] at this
    simp at this
  | cons first more =>
    have hS := twice_sorted a ha
    have hSe : twice (onesOf a) = [] ++ first :: (more ++ (first :: more).map (· + 360)) := by
      rw [ho]; simp [twice]
    have inv : GiblInv (twice (onesOf a)) crit ⟨1, [first], []⟩ first first := by
      have hf : first ∈ twice (onesOf a) := by rw [hSe]; simp
      have hmin : ∀ u ∈ twice (onesOf a), first ≤ u := by
        intro u hu
        rw [hSe] at hS hu
        simp only [List.nil_append, List.mem_cons] at hu
        simp only [List.nil_append] at hS
        rw [List.pairwise_cons] at hS
        rcases hu with h | h
        · omega
        · exact le_of_lt (hS.1 u h)
      refine ⟨⟨hf, hf, le_refl _, fun s _ h1 h2 => by omega⟩, (arange_one first).symm, by simp, ?_, ?_, List.Pairwise.nil, by simp⟩
      · intro u hu hlt
        have := hmin u hu
        omega
      · intro x
        constructor
        · intro h; simp at h
        · rintro ⟨b, c, h1, h2, _⟩
          have := hmin c h1.mb
          omega
    obtain ⟨hmem, hsort⟩ := giblLoop_spec crit hc _ hS (more ++ (first :: more).map (· + 360)) [] first ⟨1, [first], []⟩ first hSe
      (by simp) inv
    simp only
    generalize (giblLoop crit ⟨1, [first], []⟩ first (more ++ (first :: more).map (· + 360))).btfin = fin at *
    have hmem' : ∀ x, x ∈ fin ↔ InGroupTwice (BlockedAt a) crit x := fun x => (hmem x).trans (covered_iff a ha crit x)
    have hcard : fin.length = coveredTwice a crit := by
      have hnd : fin.Nodup := hsort.imp (fun h => Nat.ne_of_lt h)
      rw [← List.toFinset_card_of_nodup hnd]
      unfold coveredTwice
      refine congrArg Finset.card (Finset.ext fun x => ?_)
      simp only [List.mem_toFinset, Finset.mem_filter, Finset.mem_range, hmem']
      constructor
      · intro h
        refine ⟨?_, h⟩
        obtain ⟨_, _, _, _, _, _, _, _⟩ := h
        omega
      · exact fun h => h.2
    have hguard : ((fin.length : ℚ) / 2 < (crit : ℚ)) ↔ ¬ 2 * crit ≤ coveredTwice a crit := by
      rw [div_lt_iff₀ (by norm_num), hcard, not_le]
      constructor
      · intro h
        have : ((coveredTwice a crit : ℤ) : ℚ) < ((crit * 2 : ℤ) : ℚ) := by push_cast; exact h
        have := Int.cast_lt.mp this
        omega
      · intro h
        have : ((coveredTwice a crit : ℤ) : ℚ) < ((crit * 2 : ℤ) : ℚ) := Int.cast_lt.mpr (by omega)
        push_cast at this
        exact this
    by_cases hg : 2 * crit ≤ coveredTwice a crit
    · have hnot : ¬ ((fin.length : ℚ) / 2 < (crit : ℚ)) := by rw [hguard]; exact not_not.mpr hg
      have hne : ¬ fin.length = 0 := by omega
      simp only [hnot, if_false, hne]
      have hlt : ∀ x ∈ fin, x < 720 := by
        intro x hx
        obtain ⟨_, _, _, _, _, _, _, _⟩ := (hmem' x).mp hx
        omega
      rw [if_neg]
      · refine ⟨_, rfl, by rw [List.length_map, List.length_range, ha], fun j hj => ?_⟩
        rw [List.getElem?_map, List.getElem?_range (by omega)]
        have hj' : j ∈ (fin.map fun x => if 360 ≤ x then x - 360 else x) ↔ InGroup (BlockedAt a) crit j := by
          rw [inGroup_twice a crit hc' j ⟨by omega, by omega⟩, ← hmem']
          have : InGroupTwice (BlockedAt a) crit ((j : ℤ) + 360) ↔ (j + 360) ∈ fin := by
            rw [hmem']; push_cast; rfl
          rw [this, List.mem_map]
          constructor
          · rintro ⟨x, hx, rfl⟩
            split
            · right; rwa [show x - 360 + 360 = x by omega]
            · left; exact hx
          · rintro (h | h)
            · exact ⟨j, h, by rw [if_neg (by omega)]⟩
            · exact ⟨j + 360, h, by rw [if_pos (by omega)]; omega⟩
        simp only [Option.map_some, hj', hg, and_true]
        by_cases h : InGroup (BlockedAt a) crit j <;> simp [h]
      · simp only [List.any_map, List.any_eq_true, decide_eq_true_eq, not_exists, not_and, ha, Function.comp]
        intro x hx
        have := hlt x hx
        split <;> omega
    · simp only [hguard.mpr hg, List.length_nil, if_true]
      exact ⟨_, rfl, zerosCase (fun j hj h => hg h.2)⟩

/-- C124, a day on which no group straddles longitude 0: exactly the longitudes of the groups are marked. -/
theorem C124_no_straddle (crit dist : ℤ) (a : List ℚ) (ha : a.length = 360) (hc : 2 ≤ crit) (hc' : crit ≤ 360)
    (hns : ∀ z w, BlockedAt a z → BlockedAt a w → z < 360 → 360 ≤ w → crit < 2 * (w - z)) :
    ∃ row, giblRow crit dist a = .ok row ∧ row.length = 360 ∧ ∀ (j : ℕ), j < 360 →
      (row[j]? = some 1 ∨ row[j]? = some 0) ∧ (row[j]? = some 1 ↔ InGroup (BlockedAt a) crit j) := by
  classical
  obtain ⟨row, h1, h2, h3⟩ := C124_marked_partial crit dist a ha hc hc'
  refine ⟨row, h1, h2, fun j hj => ⟨(h3 j hj).1, ?_⟩⟩
  rw [(h3 j hj).2]
  refine and_iff_left_of_imp ?_
  rintro ⟨lo, hi, g, hlen, _, _⟩
  have hle := g.le
  -- move the group into one turn
  have hs := isGroup_shift a crit lo hi (-(lo / 360)) g
  have hb : 0 ≤ lo + 360 * (-(lo / 360)) ∧ lo + 360 * (-(lo / 360)) < 360 := by omega
  have hd : hi + 360 * (-(lo / 360)) - (lo + 360 * (-(lo / 360))) = hi - lo := by omega
  generalize lo + 360 * (-(lo / 360)) = l at *
  generalize hi + 360 * (-(lo / 360)) = h at *
  have hh : h < 360 := by
    by_contra hcon
    -- the last blocked longitude of the group below 360
    have : ∀ n : ℕ, ∀ s, BlockedAt a s → l ≤ s → s < 360 → 360 - s ≤ n → False := by
      intro n
      induction n with
      | zero => intro s _ _ h4 h5; omega
      | succ n ih =>
        intro s hsb h3 h4 h5
        obtain ⟨t, ht, h6, h7, h8⟩ := hs.linked s hsb h3 (by omega)
        by_cases htt : t < 360
        · exact ih t ht (by omega) htt (by omega)
        · have := hns s t hsb ht h4 (by omega)
          omega
    exact this 360 l hs.first (le_refl _) hb.2 (by omega)
  obtain ⟨l, rfl⟩ := Int.eq_ofNat_of_zero_le hb.1
  obtain ⟨h, rfl⟩ := Int.eq_ofNat_of_zero_le (show 0 ≤ h by have := hs.le; omega)
  have hsub : Finset.Icc l h ∪ Finset.Icc (l + 360) (h + 360) ⊆
      (Finset.range 720).filter fun x : ℕ => InGroupTwice (BlockedAt a) crit x := by
    intro x hx
    simp only [Finset.mem_union, Finset.mem_Icc, Finset.mem_filter, Finset.mem_range] at hx ⊢
    rcases hx with hx | hx
    · exact ⟨by omega, l, h, hs, by omega, by omega, by omega, by omega, by omega⟩
    · have hs' := isGroup_shift a crit l h 1 hs
      exact ⟨by omega, _, _, hs', by omega, by omega, by omega, by omega, by omega⟩
  have hcard := Finset.card_le_card hsub
  rw [Finset.card_union_of_disjoint (by
    rw [Finset.disjoint_left]
    intro x hx hy
    simp only [Finset.mem_Icc] at hx hy
    omega), Nat.card_Icc, Nat.card_Icc] at hcard
  unfold coveredTwice
  have := hs.le
  convert (show (2 * crit : ℤ) ≤ (((Finset.range 720).filter fun x : ℕ => InGroupTwice (BlockedAt a) crit x).card : ℕ) by omega)

/-- C124: the option for the distance of blocked longitudes has no effect. -/
theorem C124_distance_ignored (crit dist dist' : ℤ) (a : List ℚ) : giblRow crit dist a = giblRow crit dist' a := rfl

/-- A day with the blocked longitudes 350..359 and 0..9: twenty longitudes in a row around the circle. -/
def exStraddle : List ℚ := (List.range 360).map fun i => if i < 10 ∨ 350 ≤ i then 1 else 0

/-- The same day turned by 20 degrees: 10..29. -/
def exTurned : List ℚ := (List.range 360).map fun i => if 10 ≤ i ∧ i < 30 then 1 else 0

/-- C124 is false: twenty blocked longitudes in a row are not marked when they straddle longitude 0, although the same twenty
are marked after turning the circle. -/
theorem C124_straddle_counterexample :
    giblRow 15 7 exStraddle = .ok ((List.range 360).map fun _ => 0) ∧ giblRow 15 7 exTurned = .ok exTurned := by
  decide +kernel

/-- Blocked longitudes at distance 7 with IBL_DIST 3 (and 15 longitudes required) are grouped. -/
theorem C124_distance_counterexample :
    giblRow 15 3 ((List.range 360).map fun i => if i = 100 ∨ i = 107 ∨ i = 114 then 1 else 0) =
      .ok ((List.range 360).map fun i => if 100 ≤ i ∧ i < 115 then 1 else 0) := by
  decide +kernel

/-- The hypotheses of the positive theorems hold for the turned day. -/
example : exTurned.length = 360 ∧ BlockedAt exTurned 10 ∧ BlockedAt exTurned 389 ∧ ¬ BlockedAt exTurned 30 := by
  unfold BlockedAt
  decide +kernel

end Metcalcpy.Props
