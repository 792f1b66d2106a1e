/-
Lengths of the runs of blocked longitudes around the circle, as computed by run_Calc_Blocks.
-/
import Verif.Model.CalcBlocks
import Verif.Props.C124_Gibl
import Mathlib.Data.List.GetD

namespace Metcalcpy.Props
open Metcalcpy Spec

/-- Length of the run of blocked longitudes that ends at `k`, not looking below 0. -/
noncomputable def runTo (P : ℤ → Prop) : ℕ → ℕ
  | 0 => open Classical in if P 0 then 1 else 0
  | k + 1 => open Classical in if P ((k + 1 : ℕ) : ℤ) then runTo P k + 1 else 0

theorem runTo_blocked (P : ℤ → Prop) (k : ℕ) (h : P k) :
    1 ≤ runTo P k ∧ runTo P k ≤ k + 1 := by
  induction k with
  | zero => simp only [runTo]; rw [if_pos (by simpa using h)]; omega
  | succ k ih =>
    simp only [runTo]
    rw [if_pos h]
    by_cases hk : P k
    · have := ih hk; omega
    · have : runTo P k = 0 := by
        cases k with
        | zero => simp only [runTo]; rw [if_neg (by simpa using hk)]
        | succ k => simp only [runTo]; rw [if_neg hk]
      omega

theorem runTo_free (P : ℤ → Prop) (k : ℕ) (h : ¬ P k) : runTo P k = 0 := by
  cases k with
  | zero => simp only [runTo]; rw [if_neg (by simpa using h)]
  | succ k => simp only [runTo]; rw [if_neg h]

theorem runTo_spec (P : ℤ → Prop) (k : ℕ) :
    (∀ i < runTo P k, P ((k : ℤ) - i)) ∧ (runTo P k ≤ k → ¬ P ((k : ℤ) - runTo P k)) := by
  induction k with
  | zero =>
    by_cases h : P 0
    · have : runTo P 0 = 1 := by simp only [runTo]; rw [if_pos h]
      rw [this]
      refine ⟨fun i hi => ?_, fun h => by omega⟩
      have : i = 0 := by omega
      subst this; simpa using h
    · have : runTo P 0 = 0 := by simp only [runTo]; rw [if_neg h]
      rw [this]
      exact ⟨fun i hi => by omega, fun _ => by simpa using h⟩
  | succ k ih =>
    by_cases h : P ((k + 1 : ℕ) : ℤ)
    · have : runTo P (k + 1) = runTo P k + 1 := by simp only [runTo]; rw [if_pos h]
      rw [this]
      refine ⟨fun i hi => ?_, fun hle => ?_⟩
      · cases i with
        | zero => simpa using h
        | succ i =>
          have := ih.1 i (by omega)
          rw [show (((k + 1 : ℕ) : ℤ) - ((i + 1 : ℕ) : ℤ)) = (k : ℤ) - i by push_cast; ring]
          exact this
      · have := ih.2 (by omega)
        rw [show (((k + 1 : ℕ) : ℤ) - ((runTo P k + 1 : ℕ) : ℤ)) = (k : ℤ) - runTo P k by push_cast; ring]
        exact this
    · rw [runTo_free P _ h]
      exact ⟨fun i hi => by omega, fun _ => by simpa using h⟩

/-- The loop writes the run length at every visited longitude but the last. -/
theorem countLoop_eq (P : ℤ → Prop) (rest : List ℕ) : ∀ (c : List ℕ) (ct p : ℕ), ct = runTo P p →
    (p :: rest).Pairwise (· < ·) → (∀ q ∈ p :: rest, P (q : ℤ)) →
    (∀ x : ℕ, P x → p < x → (∃ q ∈ rest, x ≤ q) → x ∈ rest) →
    countLoop c ct p rest = ((p :: rest).dropLast).foldl (fun c q => c.set (wrap360 q) (runTo P q)) c := by
  induction rest with
  | nil => intro c ct p _ _ _ _; simp [countLoop]
  | cons q rest ih =>
    intro c ct p hct hs hP hall
    rw [countLoop, List.dropLast_cons_of_ne_nil (by simp), List.foldl_cons, ← hct]
    rw [List.pairwise_cons] at hs
    have hpq : p < q := hs.1 q (by simp)
    apply ih
    · by_cases h : q = p + 1
      · rw [if_pos h, h]
        have hq := hP q (by simp)
        rw [h] at hq
        simp only [runTo]
        rw [if_pos hq, hct]
      · rw [if_neg h]
        obtain ⟨k, rfl⟩ : ∃ k, q = k + 1 := ⟨q - 1, by omega⟩
        have hk : ¬ P (k : ℤ) := by
          intro hk
          have := hall k hk (by omega) ⟨k + 1, by simp, by omega⟩
          rcases List.mem_cons.mp this with h' | h'
          · omega
          · have := (List.pairwise_cons.mp hs.2).1 k h'; omega
        have hq := hP (k + 1) (by simp)
        simp only [runTo]
        rw [if_pos hq, runTo_free P k hk]
    · exact hs.2
    · exact fun x hx => hP x (List.mem_cons_of_mem _ hx)
    · rintro x hx hqx ⟨y, hy, hxy⟩
      have := hall x hx (by omega) ⟨y, List.mem_cons_of_mem _ hy, hxy⟩
      rcases List.mem_cons.mp this with h' | h'
      · omega
      · exact h'

theorem foldl_set_length (l : List ℕ) (f v : ℕ → ℕ) (c : List ℕ) :
    (l.foldl (fun c q => c.set (f q) (v q)) c).length = c.length := by
  induction l generalizing c with
  | nil => rfl
  | cons q l ih => rw [List.foldl_cons, ih, List.length_set]

theorem foldl_set_getD (l : List ℕ) (f v : ℕ → ℕ) (hinj : ∀ q ∈ l, ∀ r ∈ l, f q = f r → q = r) (hnd : l.Nodup)
    (c : List ℕ) (hlt : ∀ q ∈ l, f q < c.length) (j : ℕ) :
    (∀ q ∈ l, f q = j → (l.foldl (fun c q => c.set (f q) (v q)) c).getD j 0 = v q) ∧
    ((∀ q ∈ l, f q ≠ j) → (l.foldl (fun c q => c.set (f q) (v q)) c).getD j 0 = c.getD j 0) := by
  induction l generalizing c with
  | nil => simp
  | cons p l ih =>
    rw [List.nodup_cons] at hnd
    have ih' := ih (fun q hq r hr => hinj q (List.mem_cons_of_mem _ hq) r (List.mem_cons_of_mem _ hr)) hnd.2
      (c.set (f p) (v p)) (fun q hq => by rw [List.length_set]; exact hlt q (List.mem_cons_of_mem _ hq))
    rw [List.foldl_cons]
    refine ⟨fun q hq hqj => ?_, fun h => ?_⟩
    · rcases List.mem_cons.mp hq with rfl | hq'
      · rw [ih'.2 (fun r hr hrj => ?_)]
        · rw [← hqj, List.getD_eq_getElem?_getD, List.getElem?_set_self (hlt q (by simp))]; rfl
        · have := hinj r (List.mem_cons_of_mem _ hr) q (by simp) (by rw [hrj, hqj])
          rw [this] at hr; exact hnd.1 hr
      · exact ih'.1 q hq' hqj
    · rw [ih'.2 (fun q hq => h q (List.mem_cons_of_mem _ hq))]
      rw [List.getD_eq_getElem?_getD, List.getElem?_set_ne (h p (by simp)), ← List.getD_eq_getElem?_getD]

/-- The counts of one day, read around the circle. -/
def around360 (c : List ℕ) (z : ℤ) : ℕ := c.getD (z % 360).toNat 0

theorem onesOf_sorted (a : List ℚ) : (onesOf a).Pairwise (· < ·) := by
  unfold onesOf
  exact List.pairwise_lt_range.filter _

theorem runCounts_length (a : List ℚ) : (runCounts a).length = a.length := by
  have key : ∀ (rest : List ℕ) (c : List ℕ) (ct p : ℕ), (countLoop c ct p rest).length = c.length := by
    intro rest
    induction rest with
    | nil => intro c ct p; rfl
    | cons q rest ih => intro c ct p; rw [countLoop, ih, List.length_set]
  unfold runCounts
  simp only
  split
  · simp
  · rw [key]; simp

theorem replicate_getD (n j : ℕ) : (List.replicate n 0).getD j 0 = 0 := by
  rw [List.getD_eq_getElem?_getD, List.getElem?_replicate]
  split <;> rfl

/-- The counts: 0 at a free longitude, otherwise the length of the run around the circle that ends there. -/
theorem runCounts_spec (a : List ℚ) (ha : a.length = 360) (hz : ∃ z, ¬ BlockedAt a z) (j : ℕ) (hj : j < 360) :
    (¬ BlockedAt a j → (runCounts a).getD j 0 = 0) ∧
    (BlockedAt a j → 1 ≤ (runCounts a).getD j 0 ∧ (∀ i < (runCounts a).getD j 0, BlockedAt a ((j : ℤ) - i)) ∧
      ¬ BlockedAt a ((j : ℤ) - (runCounts a).getD j 0)) := by
  obtain ⟨z, hz⟩ := hz
  have hper : ∀ w, BlockedAt a (w + 360) ↔ BlockedAt a w := fun w => by
    have := blockedAt_shift a w 1; simpa using this
  cases hones : onesOf a with
  | nil =>
    have hnone : ¬ BlockedAt a j := fun h => by
      have := (mem_onesOf a ha j).mpr ⟨hj, h⟩
      rw [hones] at this; simp at this
    refine ⟨fun _ => ?_, fun h => absurd h hnone⟩
    unfold runCounts
    simp only [hones]
    exact replicate_getD _ _
  | cons f more =>
    have htw : twice (onesOf a) = f :: (more ++ (f :: more).map (· + 360)) := by rw [hones]; rfl
    have hsorted := twice_sorted a ha
    have hc : runCounts a = ((twice (onesOf a)).dropLast).foldl
        (fun c q => c.set (wrap360 q) (runTo (BlockedAt a) q)) (List.replicate 360 0) := by
      unfold runCounts
      simp only [hones, ha]
      rw [htw] at hsorted
      refine countLoop_eq (BlockedAt a) _ _ 1 f ?_ hsorted ?_ ?_
      · have hf := (mem_onesOf a ha f).mp (by rw [hones]; simp)
        cases f with
        | zero => simp only [runTo]; rw [if_pos (by simpa using hf.2)]
        | succ k =>
          have hk : ¬ BlockedAt a (k : ℤ) := fun hk => by
            have h1 := (mem_onesOf a ha k).mpr ⟨by omega, hk⟩
            have h2 := onesOf_sorted a
            rw [hones] at h1 h2
            rcases List.mem_cons.mp h1 with h | h
            · omega
            · have := (List.pairwise_cons.mp h2).1 k h; omega
          simp only [runTo]
          rw [if_pos hf.2, runTo_free _ k hk]
      · intro q hq
        rw [← htw] at hq
        exact ((mem_twice a ha q).mp hq).2
      · rintro x hx hfx ⟨y, hy, hxy⟩
        have hy' : y ∈ twice (onesOf a) := by rw [htw]; exact List.mem_cons_of_mem _ hy
        have h720 := ((mem_twice a ha y).mp hy').1
        have : x ∈ twice (onesOf a) := (mem_twice a ha x).mpr ⟨by omega, hx⟩
        rw [htw] at this
        rcases List.mem_cons.mp this with h | h
        · omega
        · exact h
    -- split into the two passes
    have hne : onesOf a ≠ [] := by rw [hones]; simp
    have hdl : (twice (onesOf a)).dropLast = onesOf a ++ (onesOf a).dropLast.map (· + 360) := by
      unfold twice
      rw [List.dropLast_append_of_ne_nil (by simpa using hne), List.map_dropLast]
    rw [hdl, List.foldl_append] at hc
    have hnd : (onesOf a).Nodup := (onesOf_sorted a).imp (fun h => by omega)
    have hw1 : ∀ q ∈ onesOf a, wrap360 q = q := fun q hq => by
      have := ((mem_onesOf a ha q).mp hq).1
      unfold wrap360; rw [if_neg (by omega)]
    have h1 := foldl_set_getD (onesOf a) wrap360 (runTo (BlockedAt a))
      (fun q hq r hr h => by rw [hw1 q hq, hw1 r hr] at h; exact h) hnd (List.replicate 360 0)
      (fun q hq => by rw [hw1 q hq, List.length_replicate]; exact ((mem_onesOf a ha q).mp hq).1) j
    set c1 := (onesOf a).foldl (fun c q => c.set (wrap360 q) (runTo (BlockedAt a) q)) (List.replicate 360 0) with hc1
    have hlen1 : c1.length = 360 := by rw [hc1, foldl_set_length, List.length_replicate]
    have hmem2 : ∀ q ∈ (onesOf a).dropLast.map (· + 360), ∃ r ∈ (onesOf a).dropLast, q = r + 360 ∧ wrap360 q = r ∧ r < 360 := by
      intro q hq
      obtain ⟨r, hr, rfl⟩ := List.mem_map.mp hq
      have := ((mem_onesOf a ha r).mp (List.mem_of_mem_dropLast hr)).1
      refine ⟨r, hr, rfl, ?_, this⟩
      unfold wrap360; rw [if_pos (by omega)]; omega
    have h2 := foldl_set_getD ((onesOf a).dropLast.map (· + 360)) wrap360 (runTo (BlockedAt a))
      (fun q hq r hr h => by
        obtain ⟨q', _, e1, e2, _⟩ := hmem2 q hq
        obtain ⟨r', _, e3, e4, _⟩ := hmem2 r hr
        rw [e2, e4] at h; omega)
      (((hnd.sublist (List.dropLast_sublist _))).map (fun x y h => by simpa using h)) c1
      (fun q hq => by obtain ⟨q', _, e1, e2, e3⟩ := hmem2 q hq; rw [e2, hlen1]; exact e3) j
    rw [← hc] at h2
    constructor
    · intro hfree
      have hn1 : ∀ q ∈ onesOf a, wrap360 q ≠ j := fun q hq h => by
        rw [hw1 q hq] at h; rw [h] at hq
        exact hfree ((mem_onesOf a ha j).mp hq).2
      rw [h2.2 (fun q hq h => by
        obtain ⟨q', hq', e1, e2, _⟩ := hmem2 q hq
        rw [e2] at h; rw [h] at hq'
        exact hfree ((mem_onesOf a ha j).mp (List.mem_of_mem_dropLast hq')).2), h1.2 hn1]
      exact replicate_getD _ _
    · intro hb
      have hjm := (mem_onesOf a ha j).mpr ⟨hj, hb⟩
      by_cases hd : j ∈ (onesOf a).dropLast
      · have e := h2.1 (j + 360) (List.mem_map_of_mem hd) (by unfold wrap360; rw [if_pos (by omega)]; omega)
        rw [e]
        have hb' : BlockedAt a ((j + 360 : ℕ) : ℤ) := by push_cast; exact (hper j).mpr hb
        obtain ⟨l1, l2⟩ := runTo_blocked (BlockedAt a) (j + 360) hb'
        obtain ⟨s1, s2⟩ := runTo_spec (BlockedAt a) (j + 360)
        have hsh : ∀ i : ℤ, BlockedAt a (((j + 360 : ℕ) : ℤ) - i) ↔ BlockedAt a ((j : ℤ) - i) := fun i => by
          rw [← hper ((j : ℤ) - i)]
          rw [show ((j + 360 : ℕ) : ℤ) - i = (j : ℤ) - i + 360 by push_cast; ring]
        -- fewer than 360
        have hlt : runTo (BlockedAt a) (j + 360) ≤ j + 360 := by
          by_contra hge
          have hk := s1 ((j : ℤ) - z % 360 + 360 * (if z % 360 ≤ j then 0 else 1)).toNat (by split <;> omega)
          apply hz
          have : BlockedAt a ((z % 360)) ↔ BlockedAt a z := by
            unfold BlockedAt; rw [show z % 360 % 360 = z % 360 by omega]
          rw [← this]
          by_cases hzj : z % 360 ≤ j
          · rw [if_pos hzj] at hk
            rw [hsh] at hk
            rw [show (j : ℤ) - (((j : ℤ) - z % 360 + 360 * 0).toNat : ℤ) = z % 360 by omega] at hk
            exact hk
          · rw [if_neg hzj] at hk
            rw [show ((j + 360 : ℕ) : ℤ) - (((j : ℤ) - z % 360 + 360 * 1).toNat : ℤ) = z % 360 by omega] at hk
            exact hk
        refine ⟨l1, fun i hi => (hsh i).mp (s1 i hi), fun h => s2 hlt ((hsh _).mpr h)⟩
      · -- the last blocked longitude
        have hlast : ∀ x ∈ onesOf a, x ≤ j := by
          have hsplit := List.dropLast_append_getLast hne
          have hj' : j = (onesOf a).getLast hne := by
            rw [← hsplit] at hjm
            rcases List.mem_append.mp hjm with h | h
            · exact absurd h hd
            · simpa using h
          intro x hx
          have hs := onesOf_sorted a
          rw [← hsplit, List.pairwise_append] at hs
          rw [← hsplit] at hx
          rcases List.mem_append.mp hx with h | h
          · have := hs.2.2 x h _ (List.mem_singleton.mpr rfl); omega
          · have : x = (onesOf a).getLast hne := by simpa using h
            omega
        have hn2 : ∀ q ∈ (onesOf a).dropLast.map (· + 360), wrap360 q ≠ j := fun q hq h => by
          obtain ⟨q', hq', e1, e2, _⟩ := hmem2 q hq
          rw [e2] at h; rw [h] at hq'; exact hd hq'
        have e := h2.2 hn2
        rw [h1.1 j hjm (hw1 j hjm)] at e
        rw [e]
        obtain ⟨l1, l2⟩ := runTo_blocked (BlockedAt a) j hb
        obtain ⟨s1, s2⟩ := runTo_spec (BlockedAt a) j
        refine ⟨l1, s1, ?_⟩
        by_cases hle : runTo (BlockedAt a) j ≤ j
        · exact s2 hle
        · have hL : runTo (BlockedAt a) j = j + 1 := by omega
          rw [hL]
          intro hm
          have h359 : BlockedAt a ((359 : ℕ) : ℤ) := by
            have := (hper ((j : ℤ) - ((j + 1 : ℕ) : ℤ))).mpr hm
            rw [show (j : ℤ) - ((j + 1 : ℕ) : ℤ) + 360 = ((359 : ℕ) : ℤ) by push_cast; ring] at this
            exact this
          have hj359 := hlast 359 ((mem_onesOf a ha 359).mpr ⟨by omega, h359⟩)
          have hj3 : j = 359 := by omega
          apply hz
          have hk := s1 ((359 : ℤ) - z % 360).toNat (by rw [hL]; omega)
          rw [show (j : ℤ) - (((359 : ℤ) - z % 360).toNat : ℤ) = z % 360 by omega] at hk
          have : BlockedAt a ((z % 360)) ↔ BlockedAt a z := by
            unfold BlockedAt; rw [show z % 360 % 360 = z % 360 by omega]
          exact this.mp hk

end Metcalcpy.Props
