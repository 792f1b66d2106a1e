/-
The loop of run_Calc_GIBL collects the positions of the long chains of its list.
-/
import Verif.Model.Blocking
import Mathlib.Data.List.Sort
import Mathlib.Tactic.Linarith
import Mathlib.Tactic.NormNum

namespace Metcalcpy

theorem mem_arange {lo hi x : ℕ} : x ∈ arange lo hi ↔ lo ≤ x ∧ x < hi := by
  unfold arange
  simp only [List.mem_map, List.mem_range]
  constructor
  · rintro ⟨a, h, rfl⟩; omega
  · rintro ⟨h1, h2⟩; exact ⟨x - lo, by omega, by omega⟩

theorem arange_sorted (lo hi : ℕ) : (arange lo hi).Pairwise (· < ·) := by
  unfold arange
  rw [List.pairwise_map]
  exact List.pairwise_lt_range.imp (fun h => by omega)

theorem arange_append {lo mid hi : ℕ} (h1 : lo ≤ mid) (h2 : mid ≤ hi) : arange lo mid ++ arange mid hi = arange lo hi := by
  unfold arange
  apply List.ext_getElem
  · simp; omega
  · intro i h h'
    simp only [List.length_append, List.length_map, List.length_range] at h h'
    by_cases hi' : i < mid - lo
    · rw [List.getElem_append_left (by simpa using hi')]; simp
    · rw [List.getElem_append_right (by simpa using hi')]; simp; omega

theorem arange_one (a : ℕ) : arange a (a + 1) = [a] := by simp [arange]

/-- A chain of entries of `S`. -/
structure Chain (S : List ℕ) (crit : ℤ) (a b : ℕ) : Prop where
  ma : a ∈ S
  mb : b ∈ S
  le : a ≤ b
  linked : ∀ s ∈ S, a ≤ s → s < b → ∃ t ∈ S, s < t ∧ t ≤ b ∧ 2 * ((t : ℤ) - s) ≤ crit

/-- Position `x` lies in a chain covering at least `crit` positions. -/
def Covered (S : List ℕ) (crit : ℤ) (x : ℕ) : Prop :=
  ∃ a b, Chain S crit a b ∧ crit ≤ (b : ℤ) - a + 1 ∧ a ≤ x ∧ x ≤ b

structure GiblInv (S : List ℕ) (crit : ℤ) (s : GiblState) (s0 prev : ℕ) : Prop where
  chain : Chain S crit s0 prev
  btlon : s.btlon = arange s0 (prev + 1)
  ct : s.ct = (prev : ℤ) - s0 + 1
  barrier : ∀ u ∈ S, u < s0 → ∃ v ∈ S, u ≤ v ∧ v < s0 ∧ ∀ t ∈ S, v < t → crit < 2 * ((t : ℤ) - v)
  fin : ∀ x, x ∈ s.btfin ↔ ∃ a b, Chain S crit a b ∧ b < s0 ∧ crit ≤ (b : ℤ) - a + 1 ∧ a ≤ x ∧ x ≤ b
  sorted : s.btfin.Pairwise (· < ·)
  below : ∀ x ∈ s.btfin, x < s0

theorem GiblInv.start_le {S : List ℕ} {crit : ℤ} {s : GiblState} {s0 prev : ℕ} (I : GiblInv S crit s s0 prev) {a b : ℕ}
    (h : Chain S crit a b) (hb : s0 ≤ b) : s0 ≤ a := by
  by_contra hc
  obtain ⟨v, hv, h1, h2, h3⟩ := I.barrier a h.ma (by omega)
  obtain ⟨t, ht, h4, _, h5⟩ := h.linked v hv h1 (by omega)
  have := h3 t ht h4
  omega

/-- Adding the finished chain. -/
theorem GiblInv.close {S : List ℕ} {crit : ℤ} {s : GiblState} {s0 prev : ℕ} (I : GiblInv S crit s s0 prev) (x : ℕ) :
    x ∈ (if crit ≤ s.ct then s.btfin ++ s.btlon else s.btfin) ↔
      ∃ a b, Chain S crit a b ∧ b ≤ prev ∧ crit ≤ (b : ℤ) - a + 1 ∧ a ≤ x ∧ x ≤ b := by
  have hsp := I.chain.le
  constructor
  · intro h
    have : x ∈ s.btfin ∨ (crit ≤ s.ct ∧ x ∈ s.btlon) := by
      split at h
      · rename_i hc
        rcases List.mem_append.mp h with h | h
        · exact .inl h
        · exact .inr ⟨hc, h⟩
      · exact .inl h
    rcases this with h | ⟨hc, h⟩
    · obtain ⟨a, b, h1, h2, h3⟩ := (I.fin x).mp h
      exact ⟨a, b, h1, by omega, h3⟩
    · rw [I.btlon, mem_arange] at h
      rw [I.ct] at hc
      exact ⟨s0, prev, I.chain, le_refl _, by omega, h.1, by omega⟩
  · rintro ⟨a, b, hch, hb, hlen, hax, hxb⟩
    by_cases hbs : b < s0
    · have := (I.fin x).mpr ⟨a, b, hch, hbs, hlen, hax, hxb⟩
      split
      · exact List.mem_append_left _ this
      · exact this
    · have := I.start_le hch (by omega)
      rw [if_pos (by rw [I.ct]; omega), I.btlon]
      exact List.mem_append_right _ (mem_arange.mpr ⟨by omega, by omega⟩)

theorem GiblInv.close_sorted {S : List ℕ} {crit : ℤ} {s : GiblState} {s0 prev : ℕ} (I : GiblInv S crit s s0 prev) :
    (if crit ≤ s.ct then s.btfin ++ s.btlon else s.btfin).Pairwise (· < ·) := by
  split
  · rw [List.pairwise_append]
    refine ⟨I.sorted, ?_, fun x hx y hy => ?_⟩
    · rw [I.btlon]; exact arange_sorted _ _
    · rw [I.btlon, mem_arange] at hy
      have := I.below x hx
      omega
  · exact I.sorted

theorem giblStep_small (crit : ℤ) (last : Bool) (s : GiblState) (s0 prev cur : ℕ) (hlt : prev < cur) (h0 : s0 ≤ prev)
    (hb : s.btlon = arange s0 (prev + 1)) (hs : 2 * ((cur : ℤ) - prev) ≤ crit) :
    giblStep crit last s prev cur =
      (let s' : GiblState := { s with btlon := arange s0 (cur + 1), ct := s.ct + (cur - prev : ℕ) }
       if last = true then { ct := 1, btlon := [cur], btfin := if crit ≤ s'.ct then s'.btfin ++ s'.btlon else s'.btfin } else s') := by
  have hd : ((cur : ℤ) - prev).natAbs = cur - prev := by omega
  have hle : ((cur - prev : ℕ) : ℚ) ≤ (crit : ℚ) / 2 := by
    rw [le_div_iff₀ (by norm_num)]
    have : (((cur - prev : ℕ) : ℤ) * 2 : ℤ) ≤ crit := by omega
    exact_mod_cast this
  unfold giblStep
  simp only [hd, hle, not_lt.mpr hle, false_or, true_and]
  by_cases h1 : cur - prev = 1
  · have : cur = prev + 1 := by omega
    subst this
    simp only [h1, if_true, ne_eq, not_true, if_false, hb]
    rw [← arange_one (prev + 1), arange_append (by omega) (by omega)]
  · simp only [h1, if_false, ne_eq, not_false_eq_true, if_true, hb]
    rw [arange_append (by omega) (by omega)]

theorem giblStep_big (crit : ℤ) (last : Bool) (s : GiblState) (prev cur : ℕ) (hlt : prev < cur) (hc : 2 ≤ crit)
    (hs : crit < 2 * ((cur : ℤ) - prev)) :
    giblStep crit last s prev cur =
      { ct := 1, btlon := [cur], btfin := if crit ≤ s.ct then s.btfin ++ s.btlon else s.btfin } := by
  have hd : ((cur : ℤ) - prev).natAbs = cur - prev := by omega
  have hgt : (crit : ℚ) / 2 < ((cur - prev : ℕ) : ℚ) := by
    rw [div_lt_iff₀ (by norm_num)]
    have : crit < (((cur - prev : ℕ) : ℤ) * 2 : ℤ) := by omega
    exact_mod_cast this
  have h1 : cur - prev ≠ 1 := by omega
  unfold giblStep
  simp only [hd, hgt, not_le.mpr hgt, h1, false_and, if_false, true_or, if_true]

theorem giblLoop_spec (crit : ℤ) (hc : 2 ≤ crit) (S : List ℕ) (hS : S.Pairwise (· < ·)) :
    ∀ (rest pre : List ℕ) (prev : ℕ) (s : GiblState) (s0 : ℕ), S = pre ++ prev :: rest → rest ≠ [] →
      GiblInv S crit s s0 prev →
      (∀ x, x ∈ (giblLoop crit s prev rest).btfin ↔ Covered S crit x) ∧
        (giblLoop crit s prev rest).btfin.Pairwise (· < ·) := by
  intro rest
  induction rest with
  | nil => intro _ _ _ _ _ h; exact absurd rfl h
  | cons cur rest ih =>
    intro pre prev s s0 hSe _ I
    have hmem : ∀ u ∈ S, u ≤ prev ∨ cur ≤ u := by
      intro u hu
      rw [hSe, List.pairwise_append] at hS
      obtain ⟨_, h2, h3⟩ := hS
      rw [List.pairwise_cons, List.pairwise_cons] at h2
      rw [hSe, List.mem_append, List.mem_cons, List.mem_cons] at hu
      rcases hu with h | h | h | h
      · left; exact le_of_lt (h3 u h prev (by simp))
      · left; omega
      · right; omega
      · right; exact le_of_lt (h2.2.1 u h)
    have hpc : prev < cur := by
      rw [hSe, List.pairwise_append, List.pairwise_cons] at hS
      exact hS.2.1.1 cur (by simp)
    have hcurS : cur ∈ S := by rw [hSe]; simp
    have hprevS : prev ∈ S := by rw [hSe]; simp
    have h0 := I.chain.le
    have hmax : rest = [] → ∀ u ∈ S, u ≤ cur := by
      intro hr u hu
      rw [hSe, List.pairwise_append] at hS
      rw [hSe, hr, List.mem_append, List.mem_cons, List.mem_singleton] at hu
      rcases hu with h | h | h
      · exact le_of_lt (hS.2.2 u h cur (by simp))
      · omega
      · omega
    by_cases hsmall : 2 * ((cur : ℤ) - prev) ≤ crit
    · -- the chain goes on
      have I' : GiblInv S crit { s with btlon := arange s0 (cur + 1), ct := s.ct + (cur - prev : ℕ) } s0 cur := by
        refine ⟨⟨I.chain.ma, hcurS, by omega, fun u hu h1 h2 => ?_⟩, rfl, ?_, I.barrier, I.fin, I.sorted, I.below⟩
        · rcases hmem u hu with h | h
          · rcases Nat.lt_or_ge u prev with h' | h'
            · obtain ⟨t, ht, h3, h4, h5⟩ := I.chain.linked u hu h1 h'
              exact ⟨t, ht, h3, by omega, h5⟩
            · have : u = prev := by omega
              subst this
              exact ⟨cur, hcurS, hpc, le_refl _, hsmall⟩
          · omega
        · simp only [I.ct]; omega
      simp only [giblLoop]
      rw [giblStep_small crit _ s s0 prev cur hpc h0 I.btlon hsmall]
      cases rest with
      | nil =>
        simp only [List.isEmpty_nil, if_true, giblLoop]
        refine ⟨fun x => ?_, I'.close_sorted⟩
        have := I'.close x
        simp only at this
        rw [this]
        constructor
        · rintro ⟨a, b, h1, _, h2⟩; exact ⟨a, b, h1, h2⟩
        · rintro ⟨a, b, h1, h2⟩; exact ⟨a, b, h1, hmax rfl b h1.mb, h2⟩
      | cons c r =>
        simp only [List.isEmpty_cons, Bool.false_eq_true, if_false]
        exact ih (pre ++ [prev]) cur _ s0 (by rw [hSe]; simp) (by simp) I'
    · -- the chain ends
      have I' : GiblInv S crit
          { ct := 1, btlon := [cur], btfin := if crit ≤ s.ct then s.btfin ++ s.btlon else s.btfin } cur cur := by
        refine ⟨⟨hcurS, hcurS, le_refl _, fun u _ h1 h2 => by omega⟩, (arange_one cur).symm, by simp, ?_, ?_, ?_, ?_⟩
        · intro u hu hlt
          refine ⟨prev, hprevS, ?_, hpc, fun t ht h => ?_⟩
          · rcases hmem u hu with h | h
            · exact h
            · omega
          · rcases hmem t ht with h' | h'
            · omega
            · omega
        · intro x
          rw [I.close x]
          constructor
          · rintro ⟨a, b, h1, h2, h3⟩; exact ⟨a, b, h1, by omega, h3⟩
          · rintro ⟨a, b, h1, h2, h3⟩
            refine ⟨a, b, h1, ?_, h3⟩
            rcases hmem b h1.mb with h | h
            · exact h
            · omega
        · exact I.close_sorted
        · intro x hx
          obtain ⟨a, b, h1, h2, h3⟩ := (I.close x).mp hx
          omega
      simp only [giblLoop]
      rw [giblStep_big crit _ s prev cur hpc hc (by omega)]
      cases rest with
      | nil =>
        simp only [giblLoop]
        refine ⟨fun x => ?_, I'.sorted⟩
        rw [I'.fin x]
        constructor
        · rintro ⟨a, b, h1, _, h2⟩; exact ⟨a, b, h1, h2⟩
        · rintro ⟨a, b, h1, h2, h3⟩
          refine ⟨a, b, h1, ?_, h2, h3⟩
          have hb := hmax rfl b h1.mb
          by_contra hcon
          have : b = cur := by omega
          subst this
          have := I'.start_le h1 (le_refl _)
          omega
      | cons c r => exact ih (pre ++ [prev]) cur _ cur (by rw [hSe]; simp) (by simp) I'

end Metcalcpy
