import Mathlib.Tactic.Linarith
import Mathlib.Tactic.Ring
import Mathlib.Algebra.BigOperators.Intervals
import Mathlib.Tactic.IntervalCases
import Mathlib.Tactic.NormNum
import Verif.Props.C168_TauMJO

/-!
C224, C225: what the two filters of the wind stress do: no shift in time, and nothing left of a steady stress.
-/

namespace Metcalcpy

theorem osum_congr {n : ℕ} {f g : ℕ → Option ℝ} (h : ∀ i < n, f i = g i) : osum n f = osum n g := by
  unfold osum
  have e : (∀ i < n, (f i).isSome) ↔ ∀ i < n, (g i).isSome := by
    constructor
    · intro hf i hi; rw [← h i hi]; exact hf i hi
    · intro hg i hi; rw [h i hi]; exact hg i hi
  by_cases hf : ∀ i < n, (f i).isSome
  · rw [if_pos hf, if_pos (e.1 hf)]
    congr 1
    exact Finset.sum_congr rfl (fun i hi => by rw [h i (Finset.mem_range.1 hi)])
  · rw [if_neg hf, if_neg (fun hg => hf (e.2 hg))]

theorem osum_reflect (n : ℕ) (f : ℕ → Option ℝ) : osum n (fun i => f (n - 1 - i)) = osum n f := by
  unfold osum
  have e : (∀ i < n, (f (n - 1 - i)).isSome) ↔ ∀ i < n, (f i).isSome := by
    constructor
    · intro hf i hi
      have := hf (n - 1 - i) (by omega)
      rwa [show n - 1 - (n - 1 - i) = i by omega] at this
    · intro hg i hi; exact hg _ (by omega)
  by_cases hf : ∀ i < n, (f (n - 1 - i)).isSome
  · rw [if_pos hf, if_pos (e.1 hf)]
    congr 1
    exact Finset.sum_range_reflect (fun i => (f i).getD 0) n
  · rw [if_neg hf, if_neg (fun hg => hf (e.2 hg))]

/-- The convolution looks at the record only. -/
theorem convSame_congr {n : ℕ} {a b : ℕ → Option ℝ} (h : ∀ i < n, a i = b i) (m : ℕ) (v : ℕ → ℝ) (t : ℕ) :
    convSame n a m v t = convSame n b m v t := by
  unfold convSame
  apply osum_congr
  intro i hi
  rw [h i hi]

/-- A symmetric filter of odd length commutes with the reversal of the record. -/
theorem convSame_reflect {n : ℕ} (a : ℕ → Option ℝ) {m : ℕ} {v : ℕ → ℝ} (hodd : m % 2 = 1)
    (hv : ∀ k < m, v k = v (m - 1 - k)) {t : ℕ} (ht : t < n) :
    convSame n (fun i => a (n - 1 - i)) m v t = convSame n a m v (n - 1 - t) := by
  unfold convSame
  rw [← osum_reflect n (fun i : ℕ => if i ≤ (n - 1 - t) + (m - 1) / 2 ∧ (n - 1 - t) + (m - 1) / 2 - i < m then
    (a i).map (fun x => x * v ((n - 1 - t) + (m - 1) / 2 - i)) else some 0)]
  apply osum_congr
  intro i hi
  by_cases hc : i ≤ t + (m - 1) / 2 ∧ t + (m - 1) / 2 - i < m
  · rw [if_pos hc, if_pos ⟨by omega, by omega⟩]
    congr 1
    funext x
    rw [hv _ hc.2]
    congr 2
    omega
  · rw [if_neg hc, if_neg (fun h => hc ⟨by omega, by omega⟩)]

theorem bandPass_reflect {n : ℕ} {f1 f2 : FiltBank} (flx : ℕ → ℕ → Option ℝ) {p t : ℕ} (ht : t < n)
    (o1 : f1.len % 2 = 1) (o2 : f2.len % 2 = 1)
    (s1 : ∀ k < f1.len, ∀ i < f1.cols, f1.w k i = f1.w (f1.len - 1 - k) i)
    (s2 : ∀ k < f2.len, ∀ i < f1.cols, f2.w k i = f2.w (f2.len - 1 - k) i) :
    bandPass n f1 f2 (fun p t => flx p (n - 1 - t)) p t = bandPass n f1 f2 flx p (n - 1 - t) := by
  unfold bandPass
  by_cases hp : p < f1.cols
  · rw [if_pos hp, if_pos hp, ← convSame_reflect _ o2 (fun k hk => s2 k hk p hp) ht]
    apply convSame_congr
    intro s hs
    rw [convSame_reflect (flx p) o1 (fun k hk => s1 k hk p hp) hs]
  · rw [if_neg hp, if_neg hp]

theorem modeAmp_congr {nP : ℕ} {un a b : ℕ → ℕ → Option ℝ} {t s : ℕ} (h : ∀ p < nP, a p t = b p s) (j : ℕ) :
    modeAmp nP un a j t = modeAmp nP un b j s := by
  unfold modeAmp
  rw [osum_congr (fun p hp => by rw [h p hp])]

theorem ostd_congr {n : ℕ} {f g : ℕ → Option ℝ} (h : ∀ i < n, f i = g i) : ostd n f = ostd n g := by
  unfold ostd
  rw [osum_congr h]
  congr 1
  funext s
  rw [osum_congr (fun i hi => by rw [h i hi])]

theorem ostd_reflect (n : ℕ) (f : ℕ → Option ℝ) : ostd n (fun i => f (n - 1 - i)) = ostd n f := by
  unfold ostd
  rw [osum_reflect]
  congr 1
  funext s
  rw [osum_reflect n (fun i => (f i).map (fun x => (x - s / n) ^ 2))]

theorem modePattern_reflect {n nP : ℕ} {un a b : ℕ → ℕ → Option ℝ} (h : ∀ p < nP, ∀ t < n, a p t = b p (n - 1 - t))
    (j : ℕ) {p : ℕ} (hp : p < nP) : modePattern n nP un a j p = modePattern n nP un b j p := by
  unfold modePattern
  have hA : ∀ t < n, modeAmp nP un a j t = modeAmp nP un b j (n - 1 - t) :=
    fun t ht => modeAmp_congr (fun q hq => h q hq t ht) j
  rw [ostd_congr hA, ostd_reflect n (modeAmp nP un b j), ← osum_reflect n (fun t : ℕ => omul (b p t) (modeAmp nP un b j t))]
  congr 1
  exact osum_congr (fun t ht => by rw [h p hp t ht, hA t ht])

theorem mjoSum_reflect {n nP : ℕ} {un a b : ℕ → ℕ → Option ℝ} (h : ∀ p < nP, ∀ t < n, a p t = b p (n - 1 - t))
    {p t : ℕ} (hp : p < nP) (ht : t < n) : mjoSum n nP un a p t = mjoSum n nP un b p (n - 1 - t) := by
  unfold mjoSum
  congr 1
  funext acc j
  rw [modePattern_reflect h j hp, modeAmp_congr (s := n - 1 - t) (b := b) (fun q hq => h q hq t ht) j]

/-- Away from the ends a convolution uses all its weights. -/
theorem convSame_const {n m : ℕ} {a : ℕ → Option ℝ} {v : ℕ → ℝ} {t : ℕ} {x : ℝ} (h0 : 1 ≤ m) (hl : m / 2 ≤ t) (hr : t + m / 2 < n)
    (hall : ∀ i < n, (a i).isSome) (ha : ∀ i, t ≤ i + m / 2 → i ≤ t + m / 2 → a i = some x) :
    convSame n a m v t = some (x * ∑ k ∈ Finset.range m, v k) := by
  unfold convSame
  have e : ∀ i < n, (if i ≤ t + (m - 1) / 2 ∧ t + (m - 1) / 2 - i < m then (a i).map (fun x => x * v (t + (m - 1) / 2 - i)) else some 0) =
      some (if i ≤ t + (m - 1) / 2 ∧ t + (m - 1) / 2 - i < m then x * v (t + (m - 1) / 2 - i) else 0) := by
    intro i hi
    by_cases hc : i ≤ t + (m - 1) / 2 ∧ t + (m - 1) / 2 - i < m
    · rw [if_pos hc, if_pos hc, ha i (by omega) (by omega)]
      rfl
    · rw [if_neg hc, if_neg hc]
  rw [osum_some e, Finset.mul_sum]
  congr 1
  rw [← Finset.sum_filter]
  refine Finset.sum_bij' (fun i _ => t + (m - 1) / 2 - i) (fun k _ => t + (m - 1) / 2 - k) ?_ ?_ ?_ ?_ ?_
  · intro i hi
    simp only [Finset.mem_filter, Finset.mem_range] at hi ⊢
    exact hi.2.2
  · intro k hk
    simp only [Finset.mem_filter, Finset.mem_range] at hk ⊢
    omega
  · intro i hi
    simp only [Finset.mem_filter, Finset.mem_range] at hi
    omega
  · intro k hk
    simp only [Finset.mem_range] at hk
    omega
  · intro i hi
    rfl

theorem convSame_isSome {n m : ℕ} {a : ℕ → Option ℝ} (v : ℕ → ℝ) (t : ℕ) (hall : ∀ i < n, (a i).isSome) :
    (convSame n a m v t).isSome := by
  unfold convSame osum
  rw [if_pos]
  · rfl
  · intro i hi
    beta_reduce
    split
    · rw [Option.isSome_map]; exact hall i hi
    · rfl

namespace Props

/-- C224.  Symmetric filters of odd length do not shift the signal in time: the reversed record has the reversed result, at
    every grid point and time.  (The points that take part are chosen at the eleventh time; they must be the same ones when
    counted from the end.) -/
theorem C224_reversal (nT nG : ℕ) (flxa : ℕ → ℕ → Option ℝ) (nE : ℕ) (eof : ℕ → ℕ → Option ℝ) (f1 f2 : FiltBank)
    (o1 : f1.len % 2 = 1) (o2 : f2.len % 2 = 1)
    (s1 : ∀ k < f1.len, ∀ i < f1.cols, f1.w k i = f1.w (f1.len - 1 - k) i)
    (s2 : ∀ k < f2.len, ∀ i < f1.cols, f2.w k i = f2.w (f2.len - 1 - k) i)
    (hpts : ∀ g < nG, (flxa (nT - 1 - 10) g).isSome = (flxa 10 g).isSome)
    (out : ℕ → ℕ → Option ℝ) (h : calcTauMJO nT nG flxa nE eof f1 f2 = .ok out) :
    ∃ out', calcTauMJO nT nG (fun t g => flxa (nT - 1 - t) g) nE eof f1 f2 = .ok out' ∧
      ∀ t < nT, ∀ g < nG, out' t g = out (nT - 1 - t) g := by
  obtain ⟨h1, h2, h3, h4, rfl⟩ := calcTauMJO_ok h
  have hv : validPoints nG (fun t g => flxa (nT - 1 - t) g) = validPoints nG flxa := by
    unfold validPoints
    apply List.filter_congr
    intro g hg
    exact hpts g (List.mem_range.1 hg)
  refine ⟨_, calcTauMJO_intro h1 (by rw [hv]; exact h2) (by rw [hv]; exact h3) h4, ?_⟩
  intro t ht g hg
  simp only [hv]
  by_cases hm : g ∈ validPoints nG flxa
  · rw [if_pos hm, if_pos hm]
    have hl := List.idxOf_lt_length_iff.2 hm
    generalize validPoints nG flxa = idx at hl ⊢
    have hb : ∀ p < idx.length, ∀ s < nT, bandPass nT f1 f2 (fun p t => flxa (nT - 1 - t) (idx.getD p 0)) p s =
        bandPass nT f1 f2 (fun p t => flxa t (idx.getD p 0)) p (nT - 1 - s) :=
      fun p _ s hs => bandPass_reflect (fun p t => flxa t (idx.getD p 0)) hs o1 o2 s1 s2
    exact mjoSum_reflect (un := fun j p => eof j (idx.getD p 0)) hb hl ht
  · rw [if_neg hm, if_neg hm]

/-- C225.  A steady stress has no part of the MJO: if the weights of the first filter add up to one and every point that takes
    part has the same value at all times, the result is zero, or nan, at all times that are at least half the lengths of the
    filters away from both ends. -/
theorem C225_steady (nT nG : ℕ) (flxa : ℕ → ℕ → Option ℝ) (nE : ℕ) (eof : ℕ → ℕ → Option ℝ) (f1 f2 : FiltBank)
    (hsum : ∀ p < f1.cols, ∑ k ∈ Finset.range f1.len, f1.w k p = 1)
    (hcols : f1.cols = ((List.range nG).filter (fun g => (flxa 10 g).isSome)).length)
    (hconst : ∀ g < nG, flxa 10 g ≠ none → ∀ t < nT, flxa t g = flxa 10 g)
    (out : ℕ → ℕ → Option ℝ) (h : calcTauMJO nT nG flxa nE eof f1 f2 = .ok out)
    (t : ℕ) (hl : f1.len / 2 + f2.len / 2 ≤ t) (hr : t + (f1.len / 2 + f2.len / 2) < nT) (g : ℕ) (hg : g < nG)
    (hv : flxa 10 g ≠ none) : out t g = some 0 ∨ out t g = none := by
  obtain ⟨h1, h2, h3, h4, rfl⟩ := calcTauMJO_ok h
  have hsome : ∀ g, flxa 10 g ≠ none → (flxa 10 g).isSome := fun g hne => Option.isSome_iff_ne_none.2 hne
  have hm : g ∈ validPoints nG flxa := mem_validPoints.2 ⟨hg, hsome g hv⟩
  simp only
  rw [if_pos hm]
  set idx := validPoints nG flxa with hidx
  have hc : f1.cols = idx.length := hcols
  have hne : f1.cols ≠ 0 := by
    rw [hc]
    exact (List.length_pos_of_mem hm).ne'
  have hlens : 1 ≤ f1.len ∧ 1 ≤ f2.len := by
    unfold bandPassCheck at h3
    rw [if_neg hne] at h3
    split at h3
    · simp at h3
    · split at h3
      · simp at h3
      · split at h3
        · simp at h3
        · split at h3
          · simp at h3
          · omega
  have hz : ∀ p < idx.length, bandPass nT f1 f2 (fun p t => flxa t (idx.getD p 0)) p t = some 0 := by
    intro p hp
    have hmem : idx.getD p 0 ∈ idx := by
      rw [List.getD_eq_getElem _ _ hp]; exact List.getElem_mem hp
    obtain ⟨hpG, hpv⟩ := mem_validPoints.1 hmem
    obtain ⟨x, hx⟩ := Option.isSome_iff_exists.1 hpv
    have hall : ∀ s < nT, flxa s (idx.getD p 0) = some x := by
      intro s hs
      rw [hconst _ hpG (by rw [hx]; simp) s hs, hx]
    unfold bandPass
    rw [if_pos (by omega)]
    have hd : ∀ i, t ≤ i + f2.len / 2 → i ≤ t + f2.len / 2 →
        osub (flxa i (idx.getD p 0)) (convSame nT (fun t => flxa t (idx.getD p 0)) f1.len (fun k => f1.w k p) i) = some 0 := by
      intro i hi1 hi2
      rw [convSame_const (x := x) hlens.1 (by omega) (by omega) (fun s hs => by rw [hall s hs]; rfl)
        (fun s hs1 hs2 => hall s (by omega)), hall i (by omega), hsum p (by omega)]
      simp [osub]
    rw [convSame_const (x := 0) hlens.2 (by omega) (by omega) ?_ hd]
    · simp
    · intro s hs
      rw [hall s hs]
      obtain ⟨y, hy⟩ := Option.isSome_iff_exists.1 (convSame_isSome (m := f1.len) (fun k => f1.w k p) s
        (a := fun t => flxa t (idx.getD p 0)) (fun i hi => by rw [hall i hi]; rfl))
      rw [hy]
      rfl
  have hamp : ∀ j, modeAmp idx.length (fun j p => eof j (idx.getD p 0)) (bandPass nT f1 f2 (fun p t => flxa t (idx.getD p 0))) j t = some 0 ∨
      modeAmp idx.length (fun j p => eof j (idx.getD p 0)) (bandPass nT f1 f2 (fun p t => flxa t (idx.getD p 0))) j t = none := by
    intro j
    unfold modeAmp
    by_cases he : ∀ p < idx.length, (eof j (idx.getD p 0)).isSome
    · left
      rw [osum_some (g := fun _ => 0)]
      · have : (idx.length : ℝ) ≠ 0 := by
          have := List.length_pos_of_mem hm
          positivity
        simp [odiv, this]
      · intro p hp
        obtain ⟨y, hy⟩ := Option.isSome_iff_exists.1 (he p hp)
        rw [hz p hp]
        beta_reduce
        rw [hy]
        simp [omul]
    · right
      push Not at he
      obtain ⟨p, hp, hpe⟩ := he
      rw [osum_none hp]
      · rfl
      · have : eof j (idx.getD p 0) = none := by simpa using hpe
        beta_reduce
        rw [this]
        rfl
  unfold mjoSum
  have hfold : ∀ (js : List ℕ) (acc : Option ℝ), (acc = some 0 ∨ acc = none) →
      (js.foldl (fun acc j => oadd acc (omul (modePattern nT idx.length (fun j p => eof j (idx.getD p 0))
        (bandPass nT f1 f2 (fun p t => flxa t (idx.getD p 0))) j (idx.idxOf g))
        (modeAmp idx.length (fun j p => eof j (idx.getD p 0)) (bandPass nT f1 f2 (fun p t => flxa t (idx.getD p 0))) j t))) acc = some 0 ∨
       js.foldl (fun acc j => oadd acc (omul (modePattern nT idx.length (fun j p => eof j (idx.getD p 0))
        (bandPass nT f1 f2 (fun p t => flxa t (idx.getD p 0))) j (idx.idxOf g))
        (modeAmp idx.length (fun j p => eof j (idx.getD p 0)) (bandPass nT f1 f2 (fun p t => flxa t (idx.getD p 0))) j t))) acc = none) := by
    intro js
    induction js with
    | nil => intro acc ha; exact ha
    | cons j js ih =>
      intro acc ha
      rw [List.foldl_cons]
      apply ih
      rcases ha with rfl | rfl
      · rcases hamp j with e | e <;> rw [e]
        · generalize modePattern nT idx.length _ _ j _ = q
          cases q <;> simp [oadd, omul]
        · generalize modePattern nT idx.length _ _ j _ = q
          cases q <;> simp [oadd, omul]
      · right; rfl
  exact hfold (List.range 4) (some 0) (Or.inl rfl)

/-- A running mean over three times, for two points, and a filter that changes nothing. -/
noncomputable def exMean3 : FiltBank := ⟨3, 2, fun _ _ => 1 / 3⟩
noncomputable def exKeep1 : FiltBank := ⟨1, 2, fun _ _ => 1⟩

theorem exTau_ok (flxa : ℕ → ℕ → Option ℝ) (h0 : (flxa 10 0).isSome) (h1 : (flxa 10 1).isSome) :
    ∃ out, calcTauMJO 11 2 flxa 4 (fun _ _ => some 1) exMean3 exKeep1 = .ok out := by
  have hv : validPoints 2 flxa = [0, 1] := by
    simp [validPoints, List.range_succ, h0, h1]
  exact ⟨_, calcTauMJO_intro (by norm_num) (by rw [hv]; simp) (by rw [hv]; rfl) (by norm_num)⟩

/-- The hypotheses of C224 hold of a quadratic record of two points. -/
example : exMean3.len % 2 = 1 ∧ exKeep1.len % 2 = 1 ∧
    (∀ k < exMean3.len, ∀ i < exMean3.cols, exMean3.w k i = exMean3.w (exMean3.len - 1 - k) i) ∧
    (∀ g < 2, ((fun t g : ℕ => some ((t : ℝ) ^ 2 + g)) (11 - 1 - 10) g).isSome =
      ((fun t g : ℕ => some ((t : ℝ) ^ 2 + g)) 10 g).isSome) ∧
    ∃ out, calcTauMJO 11 2 (fun t g : ℕ => some ((t : ℝ) ^ 2 + g)) 4 (fun _ _ => some 1) exMean3 exKeep1 = .ok out :=
  ⟨rfl, rfl, fun _ _ _ _ => rfl, fun _ _ => rfl, exTau_ok _ rfl rfl⟩

/-- The hypotheses of C225 hold of a steady record of two points, and the result is not missing. -/
example : ∃ out, calcTauMJO 11 2 (fun _ _ => some 1) 4 (fun _ _ => some 1) exMean3 exKeep1 = .ok out ∧ out 5 0 = some 0 ∧
    (∀ p < exMean3.cols, ∑ k ∈ Finset.range exMean3.len, exMean3.w k p = 1) := by
  have hv : validPoints 2 (fun _ _ => some (1 : ℝ)) = [0, 1] := by
    simp [validPoints, List.range_succ]
  refine ⟨_, calcTauMJO_intro (by norm_num) (by rw [hv]; simp) (by rw [hv]; rfl) (by norm_num), ?_, ?_⟩
  · rw [if_pos (by rw [hv]; simp), hv]
    have hb : ∀ p < 2, ∀ t < 11, bandPass 11 exMean3 exKeep1 (fun p t => some 1) p t = some (if t = 0 ∨ t = 10 then 1 / 3 else 0) := by
      intro p hp t ht
      have hc : ∀ s < 11, convSame 11 (fun _ => some (1 : ℝ)) 3 (fun _ => 1 / 3) s = some (if s = 0 ∨ s = 10 then 2 / 3 else 1) := by
        intro s hs
        unfold convSame
        rw [osum_some (g := fun i => if i ≤ s + (3 - 1) / 2 ∧ s + (3 - 1) / 2 - i < 3 then 1 / 3 else 0)]
        · interval_cases s <;> norm_num [Finset.sum_range_succ]
        · intro i hi
          split <;> simp
      unfold bandPass
      rw [if_pos (show p < exMean3.cols from hp)]
      show convSame 11 (fun s => osub (some 1) (convSame 11 (fun _ => some 1) 3 (fun _ => 1 / 3) s)) 1 (fun _ => 1) t = _
      unfold convSame
      rw [osum_some (g := fun i => if i = t then (if t = 0 ∨ t = 10 then 1 / 3 else 0) else 0)]
      · congr 1
        rw [Finset.sum_ite_eq' (Finset.range 11) t, if_pos (Finset.mem_range.2 ht)]
      · intro i hi
        have := hc i hi
        unfold convSame at this
        beta_reduce at this ⊢
        rw [this]
        by_cases e : i = t
        · subst e
          rw [if_pos ⟨by omega, by omega⟩, if_pos rfl]
          split <;> simp [osub] <;> norm_num
        · rw [if_neg (by omega), if_neg e]
    have ha : ∀ j, ∀ t < 11, modeAmp 2 (fun _ _ => some 1) (bandPass 11 exMean3 exKeep1 (fun p t => some 1)) j t =
        some (if t = 0 ∨ t = 10 then 1 / 3 else 0) := by
      intro j t ht
      unfold modeAmp
      rw [osum_some (g := fun _ => if t = 0 ∨ t = 10 then 1 / 3 else 0)]
      · simp [odiv]
        split <;> norm_num
      · intro p hp
        rw [hb p hp t ht]
        simp [omul]
    have hd : ∀ j, ∃ q, q ≠ 0 ∧ ostd 11 (modeAmp 2 (fun _ _ => some 1) (bandPass 11 exMean3 exKeep1 (fun p t => some 1)) j) = some q := by
      intro j
      unfold ostd
      rw [osum_some (ha j), Option.bind_some, osum_some (g := fun t => ((if t = 0 ∨ t = 10 then 1 / 3 else 0) -
        (∑ i ∈ Finset.range 11, if i = 0 ∨ i = 10 then (1 : ℝ) / 3 else 0) / (11 : ℕ)) ^ 2)
        (fun i hi => by rw [ha j i hi]; rfl)]
      refine ⟨_, ?_, rfl⟩
      rw [Real.sqrt_ne_zero']
      norm_num [Finset.sum_range_succ]
    have hp : ∀ j, ∃ q, modePattern 11 2 (fun _ _ => some 1) (bandPass 11 exMean3 exKeep1 (fun p t => some 1)) j 0 = some q := by
      intro j
      obtain ⟨q, hq, e⟩ := hd j
      unfold modePattern
      rw [e, osum_some (g := fun t => (if t = 0 ∨ t = 10 then (1 : ℝ) / 3 else 0) * (if t = 0 ∨ t = 10 then 1 / 3 else 0))
        (fun t ht => by rw [ha j t ht, hb 0 (by norm_num) t ht]; rfl)]
      simp [odiv, hq]
    show mjoSum 11 2 (fun _ _ => some 1) (bandPass 11 exMean3 exKeep1 (fun p t => some 1)) 0 5 = some 0
    unfold mjoSum
    obtain ⟨q0, e0⟩ := hp 0
    obtain ⟨q1, e1⟩ := hp 1
    obtain ⟨q2, e2⟩ := hp 2
    obtain ⟨q3, e3⟩ := hp 3
    have h5 := fun j => ha j 5 (by norm_num)
    simp only [List.range_succ, List.range_zero, List.nil_append, List.cons_append, List.foldl_cons, List.foldl_nil, e0, e1, e2, e3, h5]
    simp [oadd, omul]
  · intro p _
    show ∑ k ∈ Finset.range 3, (1 / 3 : ℝ) = 1
    norm_num

end Props
end Metcalcpy
