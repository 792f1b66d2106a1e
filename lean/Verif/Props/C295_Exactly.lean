/-
C295  When all labels of the index examples are right, exactly.
-/
import Verif.Props.C295_ExampleDays

namespace Metcalcpy.Props
open Metcalcpy

theorem take_dayRange (a b : ℤ) (n : ℕ) (h : n ≤ (b - a).toNat) : (dayRange a b).take n = dayRange a (a + n) := by
  unfold dayRange
  rw [← List.map_take, List.take_range, min_eq_left h]
  congr 2
  omega

theorem zip_labels (l t : List ℤ) : (∀ p ∈ l.zip t, p.1 = p.2) ↔ l.take t.length = t.take l.length := by
  induction l generalizing t with
  | nil => simp
  | cons x l ih =>
    cases t with
    | nil => simp
    | cons y t =>
      simp only [List.zip_cons_cons, List.mem_cons, forall_eq_or_imp, List.length_cons, List.take_succ_cons, List.cons.injEq, ih t]

/-- Sorted days without a gap after `a` are a range. -/
theorem gapless (c : List ℤ) (a : ℤ) (hs : c.Pairwise (· < ·)) (ha : ∀ x ∈ c, a ≤ x)
    (hg : ∀ x ∈ c, ∀ d, a ≤ d → d < x → d ∈ c) : c = dayRange a (a + c.length) := by
  rcases List.eq_nil_or_concat c with rfl | ⟨l, m, rfl⟩
  · simp [dayRange]
  · rw [List.concat_eq_append] at *
    have hmem : m ∈ l ++ [m] := by simp
    have hle : ∀ x ∈ l ++ [m], x ≤ m := by
      intro x hx
      rcases List.mem_append.mp hx with h | h
      · exact ((List.pairwise_append.mp hs).2.2 x h m (by simp)).le
      · rw [List.mem_singleton.mp h]
    have e : l ++ [m] = dayRange a (m + 1) := by
      refine sorted_ext hs (dayRange_sorted _ _) fun x => ?_
      rw [mem_dayRange]
      refine ⟨fun hx => ⟨ha x hx, by have := hle x hx; omega⟩, fun hx => ?_⟩
      rcases eq_or_lt_of_le (show x ≤ m by omega) with rfl | h
      · exact hmem
      · exact hg m hmem x hx.1 h
    have hlen : ((l ++ [m]).length : ℤ) = m + 1 - a := by
      have := ha m hmem
      rw [e, length_dayRange]
      omega
    rw [hlen, show a + (m + 1 - a) = m + 1 by ring]
    exact e

/-- C295, exact extent of the labels: for an index in order, every value shown is labelled with its own day exactly when the index has,
for each of its days between the two dates, all days from the first date up to it. -/
theorem C295_labels_exactly_partial {α : Type} (pcs : List (ℤ × α)) (first last : ℤ) (h : first ≤ last)
    (hs : (pcs.map Prod.fst).Pairwise (· < ·)) :
    (∀ p ∈ examplePoints pcs first last, p.1.1 = p.2) ↔
      ∀ x ∈ pcs.map Prod.fst, first ≤ x → x ≤ last → ∀ d, first ≤ d → d < x → d ∈ pcs.map Prod.fst := by
  obtain ⟨c, hc⟩ : ∃ c, c = (pcs.filter fun p => decide (first ≤ p.1 ∧ p.1 ≤ last)).map Prod.fst := ⟨_, rfl⟩
  have hmem : ∀ x, x ∈ c ↔ x ∈ pcs.map Prod.fst ∧ first ≤ x ∧ x ≤ last := by
    intro x
    rw [hc, List.mem_map, List.mem_map]
    constructor
    · rintro ⟨p, hp, rfl⟩
      obtain ⟨h1, h2⟩ := List.mem_filter.mp hp
      exact ⟨⟨p, h1, rfl⟩, by simpa using h2⟩
    · rintro ⟨⟨p, hp, rfl⟩, h2⟩
      exact ⟨p, List.mem_filter.mpr ⟨hp, by simpa using h2⟩, rfl⟩
  have hcs : c.Pairwise (· < ·) := by
    rw [hc, List.pairwise_map]
    rw [List.pairwise_map] at hs
    exact hs.filter _
  have hlab : (∀ p ∈ examplePoints pcs first last, p.1.1 = p.2) ↔
      c.take (dayRange first last).length = (dayRange first last).take c.length := by
    have e : (examplePoints pcs first last).map (fun p => (p.1.1, p.2)) = (c.take (dayRange first last).length).zip (dayRange first last) := by
      unfold examplePoints
      simp only
      rw [hc, ← List.map_take, List.zip_map_left]
      rfl
    have e2 : (∀ p ∈ examplePoints pcs first last, p.1.1 = p.2) ↔
        ∀ p ∈ (examplePoints pcs first last).map (fun p => (p.1.1, p.2)), p.1 = p.2 := by
      rw [List.forall_mem_map]
    rw [e2, e, zip_labels, List.take_take, min_self, List.length_take]
    rcases le_total c.length (dayRange first last).length with hl | hl
    · rw [min_eq_right hl]
    · rw [min_eq_left hl, List.take_of_length_le hl, List.take_of_length_le le_rfl]
  have hgap : (∀ x ∈ pcs.map Prod.fst, first ≤ x → x ≤ last → ∀ d, first ≤ d → d < x → d ∈ pcs.map Prod.fst) ↔
      ∀ x ∈ c, ∀ d, first ≤ d → d < x → d ∈ c := by
    constructor
    · intro H x hx d h1 h2
      obtain ⟨k1, k2, k3⟩ := (hmem x).mp hx
      exact (hmem d).mpr ⟨H x k1 k2 k3 d h1 h2, h1, by omega⟩
    · intro H x hx h1 h2 d h3 h4
      exact ((hmem d).mp (H x ((hmem x).mpr ⟨hx, h1, h2⟩) d h3 h4)).1
  rw [hlab, hgap]
  have hsub : c ⊆ dayRange first (last + 1) := fun x hx => by
    have := (hmem x).mp hx
    rw [mem_dayRange]
    omega
  have hlen : c.length ≤ (dayRange first (last + 1)).length :=
    (List.subperm_of_subset (hcs.imp fun h => h.ne) hsub).length_le
  rw [length_dayRange] at hlen
  constructor
  · intro H
    have hr : c = dayRange first (first + c.length) := by
      rcases Nat.lt_or_ge (last - first).toNat c.length with hl | hl
      · have hp := (List.subperm_of_subset (hcs.imp fun h => h.ne) hsub).perm_of_length_le (by rw [length_dayRange]; omega)
        have e : c = dayRange first (last + 1) := sorted_ext hcs (dayRange_sorted _ _) fun x => hp.mem_iff
        have : (c.length : ℤ) = last + 1 - first := by
          rw [e, length_dayRange]
          omega
        rw [this, show first + (last + 1 - first) = last + 1 by ring]
        exact e
      · rw [length_dayRange, List.take_of_length_le hl, take_dayRange _ _ _ hl] at H
        exact H
    intro x hx d h1 h2
    rw [hr, mem_dayRange] at hx ⊢
    omega
  · intro H
    have hr := gapless c first hcs (fun x hx => ((hmem x).mp hx).2.1) H
    rw [length_dayRange]
    rcases Nat.lt_or_ge (last - first).toNat c.length with hl | hl
    · have hd : (dayRange first last).take c.length = dayRange first last :=
        List.take_of_length_le (by rw [length_dayRange]; omega)
      have ht : (dayRange first (first + c.length)).take (last - first).toNat = dayRange first last := by
        rw [take_dayRange _ _ _ (by omega)]
        congr 1
        omega
      rw [hd, ← ht, ← hr]
    · rw [List.take_of_length_le hl, take_dayRange _ _ _ hl]
      exact hr

/-- An index that ends early has right labels; one without day 2 has not. -/
example : (∀ p ∈ examplePoints [((1 : ℤ), "a"), (2, "b")] 1 5, p.1.1 = p.2) ∧
    ¬ ∀ p ∈ examplePoints [((1 : ℤ), "a"), (3, "b")] 1 5, p.1.1 = p.2 := by decide +kernel

end Metcalcpy.Props
