/-
Facts about medians.
-/
import Verif.Model.RobustCorr
import Verif.Spec.RobustCorr
import Mathlib.Tactic.Linarith
import Mathlib.Tactic.Ring
import Mathlib.Tactic.FieldSimp
import Mathlib.Tactic.Positivity

namespace Metcalcpy
open Spec

theorem sorted_eq {s t l : List ℚ} (h1 : s.Perm l) (h2 : t.Perm l) (hs : s.Pairwise (· ≤ ·)) (ht : t.Pairwise (· ≤ ·)) :
    s = t := (h1.trans h2.symm).eq_of_pairwise (fun _ _ _ _ h1 h2 => le_antisymm h1 h2) hs ht

theorem npMedian_spec (l : List ℚ) (h : l ≠ []) : IsMedian l (npMedian l) := by
  have hp := List.perm_insertionSort (· ≤ ·) l
  have hs : (l.insertionSort (· ≤ ·)).Pairwise (· ≤ ·) := List.pairwise_insertionSort (· ≤ ·) l
  refine ⟨_, hp, hs, ?_⟩
  have hl := hp.length_eq
  have h0 : 0 < l.length := List.length_pos_iff.mpr h
  unfold npMedian
  generalize l.insertionSort (· ≤ ·) = s at *
  have hi : l.length / 2 < s.length := by omega
  have hj : (l.length - 1) / 2 < s.length := by omega
  refine ⟨_, _, List.getElem?_eq_getElem hj, List.getElem?_eq_getElem hi, ?_⟩
  dsimp only
  rw [hl]
  by_cases hodd : l.length % 2 = 1
  · rw [if_pos hodd, List.getElem?_eq_getElem hi, Option.getD_some]
    have : (l.length - 1) / 2 = l.length / 2 := by omega
    simp only [this]; ring
  · have : (l.length - 1) / 2 = l.length / 2 - 1 := by omega
    rw [if_neg hodd, List.getElem?_eq_getElem hi, Option.getD_some, ← this, List.getElem?_eq_getElem hj,
      Option.getD_some]

theorem Spec.IsMedian.unique {l : List ℚ} {m m' : ℚ} (h : IsMedian l m) (h' : IsMedian l m') : m = m' := by
  obtain ⟨s, p, q, a, b, ha, hb, rfl⟩ := h
  obtain ⟨t, p', q', a', b', ha', hb', rfl⟩ := h'
  obtain rfl := sorted_eq p p' q q'
  rw [ha] at ha'; rw [hb] at hb'
  simp_all

theorem Spec.IsMedian.ne_nil {l : List ℚ} {m : ℚ} (h : IsMedian l m) : l ≠ [] := by
  rintro rfl
  obtain ⟨s, p, _, a, b, ha, _⟩ := h
  rw [List.perm_nil.mp p] at ha
  simp at ha

theorem npMedian_eq {l : List ℚ} {m : ℚ} (h : IsMedian l m) : npMedian l = m :=
  (npMedian_spec l h.ne_nil).unique h

theorem Spec.IsMedian.perm {l l' : List ℚ} {m : ℚ} (h : IsMedian l m) (hp : l.Perm l') : IsMedian l' m := by
  obtain ⟨s, p, q, a, b, ha, hb, e⟩ := h
  exact ⟨s, p.trans hp, q, a, b, hp.length_eq ▸ ha, hp.length_eq ▸ hb, e⟩

/-- The two middle elements, ordered, in the list; every element is on one of their sides. -/
theorem Spec.IsMedian.middle {l : List ℚ} {m : ℚ} (h : IsMedian l m) :
    ∃ a b, a ∈ l ∧ b ∈ l ∧ a ≤ b ∧ m = (a + b) / 2 ∧ ∀ v ∈ l, v ≤ a ∨ b ≤ v := by
  have h0 : 0 < l.length := List.length_pos_iff.mpr h.ne_nil
  obtain ⟨s, p, q, a, b, ha, hb, e⟩ := h
  have hl := p.length_eq
  obtain ⟨i1, e1⟩ := List.getElem?_eq_some_iff.mp ha
  obtain ⟨i2, e2⟩ := List.getElem?_eq_some_iff.mp hb
  have hq := List.pairwise_iff_getElem.mp q
  refine ⟨a, b, p.subset (List.mem_of_getElem? ha), p.subset (List.mem_of_getElem? hb), ?_, e, ?_⟩
  · by_cases h : (l.length - 1) / 2 = l.length / 2
    · subst e1 e2; simp only [h]; exact le_rfl
    · subst e1 e2; exact hq _ _ i1 i2 (by omega)
  · intro v hv
    obtain ⟨k, hk, rfl⟩ := List.getElem_of_mem (p.symm.subset hv)
    rcases lt_trichotomy k ((l.length - 1) / 2) with h | h | h
    · left; subst e1; exact hq _ _ hk i1 h
    · left; subst h; exact e1.le
    · right
      rcases Nat.lt_or_ge (l.length / 2) k with h' | h'
      · subst e2; exact hq _ _ i2 hk h'
      · have : k = l.length / 2 := by omega
        subst this; exact e2.ge

theorem Spec.IsMedian.affine {l : List ℚ} {m : ℚ} (h : IsMedian l m) (α β : ℚ) :
    IsMedian (l.map (fun v => α * v + β)) (α * m + β) := by
  have h0 : 0 < l.length := List.length_pos_iff.mpr h.ne_nil
  obtain ⟨s, p, q, a, b, ha, hb, rfl⟩ := h
  rcases le_total 0 α with hα | hα
  · refine ⟨s.map (fun v => α * v + β), p.map _, ?_, α * a + β, α * b + β, ?_, ?_, by ring⟩
    · exact List.pairwise_map.mpr (q.imp (fun {u v} huv => by nlinarith))
    · simp [ha]
    · simp [hb]
  · have hl := p.length_eq
    refine ⟨(s.map (fun v => α * v + β)).reverse, (List.reverse_perm _).trans (p.map _), ?_, α * b + β, α * a + β, ?_,
      ?_, by ring⟩
    · exact List.pairwise_reverse.mpr (List.pairwise_map.mpr (q.imp (fun {u v} huv => by nlinarith)))
    · rw [List.length_map, List.getElem?_reverse (by simp only [List.length_map]; omega), List.length_map, hl,
        show l.length - 1 - (l.length - 1) / 2 = l.length / 2 by omega, List.getElem?_map, hb]; rfl
    · rw [List.length_map, List.getElem?_reverse (by simp only [List.length_map]; omega), List.length_map, hl,
        show l.length - 1 - l.length / 2 = (l.length - 1) / 2 by omega, List.getElem?_map, ha]; rfl

theorem Spec.IsMedMad.affine {l : List ℚ} {m d : ℚ} (h : IsMedMad l m d) (α β : ℚ) :
    IsMedMad (l.map (fun v => α * v + β)) (α * m + β) (|α| * d) := by
  refine ⟨h.1.affine α β, ?_⟩
  have := h.2.affine |α| 0
  rw [List.map_map] at this ⊢
  rw [add_zero] at this
  convert this using 2
  funext v
  simp only [Function.comp, add_zero]
  rw [← abs_mul]; congr 1; ring

theorem Spec.IsMedMad.perm {l l' : List ℚ} {m d : ℚ} (h : IsMedMad l m d) (hp : l.Perm l') : IsMedMad l' m d :=
  ⟨h.1.perm hp, h.2.perm (hp.map _)⟩

theorem Spec.IsMedMad.eq {l : List ℚ} {m d : ℚ} (h : IsMedMad l m d) : npMedian l = m ∧ madOf l = d := by
  have h1 := npMedian_eq h.1
  exact ⟨h1, by rw [madOf, h1]; exact npMedian_eq h.2⟩

theorem exists_medMad (l : List ℚ) (h : l ≠ []) : IsMedMad l (npMedian l) (madOf l) :=
  ⟨npMedian_spec l h, npMedian_spec _ (by simpa using h)⟩

theorem Spec.IsMedMad.nonneg {l : List ℚ} {m d : ℚ} (h : IsMedMad l m d) : 0 ≤ d := by
  obtain ⟨a, b, ha, hb, _, rfl, _⟩ := h.2.middle
  obtain ⟨u, _, rfl⟩ := List.mem_map.mp ha
  obtain ⟨w, _, rfl⟩ := List.mem_map.mp hb
  positivity

/-- Some value deviates by at least the median deviation and at most twice that. -/
theorem Spec.IsMedMad.witness {l : List ℚ} {m d : ℚ} (h : IsMedMad l m d) : ∃ v ∈ l, d ≤ |v - m| ∧ |v - m| ≤ 2 * d := by
  obtain ⟨a, b, ha, hb, hab, rfl, _⟩ := h.2.middle
  obtain ⟨u, _, rfl⟩ := List.mem_map.mp ha
  obtain ⟨w, hw, rfl⟩ := List.mem_map.mp hb
  have := abs_nonneg (u - m)
  exact ⟨w, hw, by linarith, by linarith⟩

/-- The rank of an element of a sorted list. -/
theorem sorted_le_iff {s : List ℚ} (hs : s.Pairwise (· ≤ ·)) {k : ℕ} {v : ℚ} (hk : s[k]? = some v) (q : ℚ) :
    v ≤ q ↔ k < s.countP (fun u => decide (u ≤ q)) := by
  induction s generalizing k with
  | nil => simp at hk
  | cons a s ih =>
    rw [List.pairwise_cons] at hs
    cases k with
    | zero =>
      simp only [List.getElem?_cons_zero, Option.some.injEq] at hk
      subst hk
      rw [List.countP_cons]
      constructor
      · intro h; simp [h]
      · intro h
        by_contra hc
        have : s.countP (fun u => decide (u ≤ q)) = 0 := by
          rw [List.countP_eq_zero]
          intro u hu; simp only [decide_eq_true_eq, not_le]; exact lt_of_lt_of_le (not_le.mp hc) (hs.1 u hu)
        simp [this, hc] at h
    | succ k =>
      rw [List.getElem?_cons_succ] at hk
      have := ih hs.2 hk
      rw [List.countP_cons]
      have hav := hs.1 v (List.mem_of_getElem? hk)
      by_cases haq : a ≤ q
      · simp [haq, this]
      · have hvq : ¬ v ≤ q := fun h => haq (hav.trans h)
        have h2 := mt this.mpr hvq
        simp only [haq, decide_false, Bool.false_eq_true, if_false, Nat.add_zero]
        exact ⟨fun h => absurd h hvq, fun h => absurd (lt_trans (Nat.lt_succ_self k) h) h2⟩

/-- Moving one element that is above the upper middle element, to another place above it, keeps the median. -/
theorem Spec.IsMedian.replace {p q : List ℚ} {v w m : ℚ} (h : IsMedian (p ++ v :: q) m)
    (hv : ∀ a b, a ≤ b → m = (a + b) / 2 → (∀ u ∈ p ++ v :: q, u ≤ a ∨ b ≤ u) →
      a ∈ p ++ v :: q → b ∈ p ++ v :: q → b < v ∧ b < w) :
    IsMedian (p ++ w :: q) m := by
  have hlen : (p ++ w :: q).length = (p ++ v :: q).length := by simp
  have h0 : 0 < (p ++ v :: q).length := List.length_pos_iff.mpr h.ne_nil
  obtain ⟨s, hp, hs, a, b, ha, hb, e⟩ := h
  have hmid : a ≤ b ∧ (∀ u ∈ p ++ v :: q, u ≤ a ∨ b ≤ u) ∧ b ∈ p ++ v :: q := by
    have hl := hp.length_eq
    obtain ⟨i1, e1⟩ := List.getElem?_eq_some_iff.mp ha
    obtain ⟨i2, e2⟩ := List.getElem?_eq_some_iff.mp hb
    have hq := List.pairwise_iff_getElem.mp hs
    generalize (p ++ v :: q).length = n at *
    refine ⟨?_, ?_, hp.subset (List.mem_of_getElem? hb)⟩
    · by_cases h : (n - 1) / 2 = n / 2
      · subst e1 e2; simp only [h]; exact le_rfl
      · subst e1 e2; exact hq _ _ i1 i2 (by omega)
    · intro u hu
      obtain ⟨k, hk, rfl⟩ := List.getElem_of_mem (hp.symm.subset hu)
      rcases lt_trichotomy k ((n - 1) / 2) with h | h | h
      · left; subst e1; exact hq _ _ hk i1 h
      · left; subst h; exact e1.le
      · right
        rcases Nat.lt_or_ge (n / 2) k with h' | h'
        · subst e2; exact hq _ _ i2 hk h'
        · have : k = n / 2 := by omega
          subst this; exact e2.ge
  obtain ⟨hbv, hbw⟩ := hv a b hmid.1 e hmid.2.1 (hp.subset (List.mem_of_getElem? ha)) hmid.2.2
  set t := (p ++ w :: q).insertionSort (· ≤ ·) with ht
  have htp : t.Perm (p ++ w :: q) := List.perm_insertionSort (· ≤ ·) _
  have hts : t.Pairwise (· ≤ ·) := List.pairwise_insertionSort (· ≤ ·) _
  have hcount : ∀ c, c ≤ b → s.countP (fun u => decide (u ≤ c)) = t.countP (fun u => decide (u ≤ c)) := by
    intro c hc
    rw [hp.countP_eq, htp.countP_eq, List.countP_append, List.countP_append, List.countP_cons, List.countP_cons]
    simp [not_le.mpr (lt_of_le_of_lt hc hbv), not_le.mpr (lt_of_le_of_lt hc hbw)]
  have key : ∀ (k : ℕ) c, c ≤ b → s[k]? = some c → t[k]? = some c := by
    intro k c hc hk
    have hkl : k < t.length := by
      have := (List.getElem?_eq_some_iff.mp hk).1
      rw [htp.length_eq, hlen, ← hp.length_eq]; exact this
    have hk' : t[k]? = some t[k] := List.getElem?_eq_getElem hkl
    have h1 : t[k] ≤ c := by
      rw [sorted_le_iff hts hk', ← hcount c hc]
      exact (sorted_le_iff hs hk c).mp le_rfl
    have h2 : c ≤ t[k] := by
      rw [sorted_le_iff hs hk, hcount _ (h1.trans hc)]
      exact (sorted_le_iff hts hk' _).mp le_rfl
    rw [hk', le_antisymm h1 h2]
  exact ⟨t, htp, hts, a, b, hlen ▸ key _ a hmid.1 ha, hlen ▸ key _ b le_rfl hb, e⟩

end Metcalcpy
