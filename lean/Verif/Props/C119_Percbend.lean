/-
C119: the percentage bend correlation.
-/
import Verif.Props.C118_Bicor

namespace Metcalcpy.Props
open Metcalcpy Spec

theorem bendScale_unique {β : ℚ} {l : List ℚ} {m ω m' ω' : ℚ} (h : IsBendScale β l m ω) (h' : IsBendScale β l m' ω') :
    m = m' ∧ ω = ω' := by
  obtain ⟨h1, s, p, q, k, e, hk⟩ := h
  obtain ⟨h1', s', p', q', k', e', hk'⟩ := h'
  obtain rfl := h1.unique h1'
  obtain rfl := sorted_eq p p' q q'
  have : k = k' := by
    rcases hk with ⟨a, b⟩ | ⟨a, b⟩ <;> rcases hk' with ⟨a', b'⟩ | ⟨a', b'⟩
    · have h1 : (k : ℚ) < k' + 1 := by linarith
      have h2 : (k' : ℚ) < k + 1 := by linarith
      have h1' : k < k' + 1 := by exact_mod_cast h1
      have h2' : k' < k + 1 := by exact_mod_cast h2
      omega
    · have : (0 : ℚ) ≤ k := by positivity
      linarith
    · have : (0 : ℚ) ≤ k' := by positivity
      linarith
    · omega
  subst this
  rw [e] at e'
  exact ⟨rfl, Option.some.inj e'⟩

theorem pyIntOf_nonneg (q : ℚ) (h : 0 ≤ q) : pyIntOf q = ⌊q⌋ := by rw [pyIntOf, if_neg (not_lt.mpr h)]

theorem pbOmega_spec (β : ℚ) (h0 : 0 ≤ β) (h1 : β ≤ 1) (l : List ℚ) (hl : l ≠ []) :
    ∃ ω, pbOmega β l = .ok ω ∧ IsBendScale β l (npMedian l) ω := by
  have hp := List.perm_insertionSort (· ≤ ·) (l.map (fun v => |v - npMedian l|))
  have hs : ((l.map (fun v => |v - npMedian l|)).insertionSort (· ≤ ·)).Pairwise (· ≤ ·) :=
    List.pairwise_insertionSort (· ≤ ·) _
  have hlen := hp.length_eq
  rw [List.length_map] at hlen
  have hpos : 0 < l.length := List.length_pos_iff.mpr hl
  have hq0 : 0 ≤ (1 - β) * (l.length : ℚ) := mul_nonneg (by linarith) (by positivity)
  have hqn : (1 - β) * (l.length : ℚ) ≤ l.length := by
    have : (0 : ℚ) ≤ l.length := by positivity
    nlinarith
  unfold pbOmega
  dsimp only
  rw [pyIntOf_nonneg _ hq0]
  have hfl := Int.floor_le ((1 - β) * (l.length : ℚ))
  have hlt := Int.lt_floor_add_one ((1 - β) * (l.length : ℚ))
  have hf0 : 0 ≤ ⌊(1 - β) * (l.length : ℚ)⌋ := Int.floor_nonneg.mpr hq0
  have hfn : ⌊(1 - β) * (l.length : ℚ)⌋ ≤ l.length := by
    have : (⌊(1 - β) * (l.length : ℚ)⌋ : ℚ) ≤ (l.length : ℤ) := by push_cast; linarith
    exact_mod_cast this
  generalize ⌊(1 - β) * (l.length : ℚ)⌋ = M at *
  have core : ∀ k : ℕ, k < l.length → ((((k : ℚ) + 1 ≤ (1 - β) * l.length ∧ (1 - β) * l.length < (k : ℚ) + 2) ∨
        ((1 - β) * l.length < 1 ∧ k + 1 = l.length))) →
      ∃ ω, (match ((l.map (fun v => |v - npMedian l|)).insertionSort (· ≤ ·))[k]? with
        | some v => Except.ok v
        | none => .error PyErr.indexError) = .ok ω ∧ IsBendScale β l (npMedian l) ω := by
    intro k hk hc
    have hk' := List.getElem?_eq_getElem (hlen.symm ▸ hk : k < _)
    rw [hk']
    exact ⟨_, rfl, npMedian_spec l hl, _, hp, hs, k, hk', hc⟩
  unfold arrayAt
  dsimp only
  rcases hf0.eq_or_lt with h | h
  · subst h
    rw [if_pos (show (0 : ℤ) - 1 < 0 by norm_num), hlen, if_neg (by omega)]
    have : ((0 : ℤ) - 1 + (l.length : ℤ)).toNat = l.length - 1 := by omega
    rw [this]
    exact core _ (by omega) (Or.inr ⟨by simpa using hlt, by omega⟩)
  · rw [if_neg (by omega), if_neg (by omega)]
    obtain ⟨k, rfl⟩ : ∃ k : ℕ, M = (k : ℤ) + 1 := ⟨(M - 1).toNat, by omega⟩
    have : ((k : ℤ) + 1 - 1).toNat = k := by omega
    rw [this]
    push_cast at hfl hlt
    exact core k (by omega) (Or.inl ⟨hfl, by linarith⟩)

theorem pbOmega_eq {β : ℚ} (h0 : 0 ≤ β) (h1 : β ≤ 1) {l : List ℚ} {m ω : ℚ} (h : IsBendScale β l m ω) :
    pbOmega β l = .ok ω ∧ npMedian l = m := by
  obtain ⟨ω', e, h'⟩ := pbOmega_spec β h0 h1 l h.1.ne_nil
  obtain ⟨rfl, rfl⟩ := bendScale_unique h h'
  exact ⟨e, rfl⟩

theorem bendScale_nonneg {β : ℚ} {l : List ℚ} {m ω : ℚ} (h : IsBendScale β l m ω) : 0 ≤ ω := by
  obtain ⟨_, s, p, _, k, e, _⟩ := h
  obtain ⟨v, _, rfl⟩ := List.mem_map.mp (p.subset (List.mem_of_getElem? e))
  exact abs_nonneg _

/-- Some value deviates by exactly the bending scale. -/
theorem bendScale_mem {β : ℚ} {l : List ℚ} {m ω : ℚ} (h : IsBendScale β l m ω) : ∃ v ∈ l, |v - m| = ω := by
  obtain ⟨_, s, p, _, k, e, _⟩ := h
  obtain ⟨v, hv, rfl⟩ := List.mem_map.mp (p.subset (List.mem_of_getElem? e))
  exact ⟨v, hv, rfl⟩

theorem psi_low (m ω v : ℚ) (h : 0 < ω) : pbPsi m ω v < -1 ↔ v < m - ω := by
  rw [pbPsi, if_neg h.ne', div_lt_iff₀ h]; constructor <;> intro h <;> linarith
theorem psi_high (m ω v : ℚ) (h : 0 < ω) : pbPsi m ω v > 1 ↔ m + ω < v := by
  rw [pbPsi, if_neg h.ne', gt_iff_lt, lt_div_iff₀ h]; constructor <;> intro h <;> linarith

theorem inside_iff (m ω v : ℚ) : |v - m| ≤ ω ↔ ¬ v < m - ω ∧ ¬ m + ω < v := by
  rw [abs_le]; constructor
  · rintro ⟨a, b⟩; constructor <;> linarith
  · rintro ⟨a, b⟩; constructor <;> linarith

theorem pbLocation_eq {l : List ℚ} {m ω : ℚ} (hm : npMedian l = m) (h : 0 < ω) :
    pbLocation ω l = bendLocation m ω l := by
  have e1 : l.countP (fun v => pbPsi m ω v < -1) = l.countP (fun v => v < m - ω) := by
    congr 1; funext v; exact decide_eq_decide.mpr (psi_low m ω v h)
  have e2 : l.countP (fun v => pbPsi m ω v > 1) = l.countP (fun v => m + ω < v) := by
    congr 1; funext v; exact decide_eq_decide.mpr (psi_high m ω v h)
  have e3 : (l.map (fun v => if pbPsi m ω v < -1 ∨ pbPsi m ω v > 1 then 0 else v)).sum =
      (l.filter (fun v => |v - m| ≤ ω)).sum := by
    clear e1 e2 hm
    induction l with
    | nil => rfl
    | cons v l ih =>
      rw [List.map_cons, List.sum_cons, ih, List.filter_cons]
      simp only [psi_low m ω v h, psi_high m ω v h]
      by_cases hv : |v - m| ≤ ω
      · obtain ⟨a, b⟩ := (inside_iff m ω v).mp hv
        rw [if_neg (by tauto), if_pos (by simpa using hv), List.sum_cons]
      · have := mt (inside_iff m ω v).mpr hv
        rw [if_pos (by tauto), if_neg (by simpa using hv), zero_add]
  have e4 : (l.length : ℚ) - l.countP (fun v => v < m - ω) - l.countP (fun v => m + ω < v) =
      (l.filter (fun v => |v - m| ≤ ω)).length := by
    clear e1 e2 e3 hm
    induction l with
    | nil => simp
    | cons v l ih =>
      rw [List.length_cons, List.countP_cons, List.countP_cons, List.filter_cons]
      by_cases hv : |v - m| ≤ ω
      · obtain ⟨a, b⟩ := (inside_iff m ω v).mp hv
        rw [if_pos (decide_eq_true hv), List.length_cons]
        simp only [a, b, decide_false, Bool.false_eq_true, if_false]
        push_cast; linarith
      · have := mt (inside_iff m ω v).mpr hv
        rw [if_neg (show ¬ decide (|v - m| ≤ ω) = true by simpa using hv)]
        by_cases a : v < m - ω
        · have b : ¬ m + ω < v := by linarith
          simp only [a, b, decide_false, decide_true, Bool.false_eq_true, if_false, if_true]
          push_cast; linarith
        · have b : m + ω < v := by tauto
          simp only [a, b, decide_false, decide_true, Bool.false_eq_true, if_false, if_true]
          push_cast; linarith
  unfold pbLocation bendLocation
  dsimp only
  rw [hm]
  rw [e1, e2, e3, e4]

theorem pbBend_eq (ω φ v : ℚ) (h : ω ≠ 0) : pbBend ω φ v = some (bent ω φ v) := by
  unfold pbBend bent
  rw [if_neg h]
  dsimp only
  generalize (v - φ) / ω = a
  congr 1
  by_cases h1 : a ≤ -1
  · rw [if_pos h1, if_neg (by norm_num), min_eq_right (by linarith), max_eq_left h1]
  · rw [if_neg h1]
    by_cases h2 : a ≥ 1
    · rw [if_pos h2, min_eq_left h2, max_eq_right (by norm_num)]
    · rw [if_neg h2, min_eq_right (by linarith), max_eq_right (by linarith)]

theorem option_mapM_some {α β : Type} (f : α → Option β) (g : α → β) (l : List α) (h : ∀ a ∈ l, f a = some (g a)) :
    l.mapM f = some (l.map g) := by
  induction l with
  | nil => rfl
  | cons a l ih =>
    rw [List.mapM_cons, h a (by simp), ih (fun b hb => h b (by simp [hb]))]; rfl

/-- With a positive scale some value is not at the location. -/
theorem bent_ne_zero {β : ℚ} {l : List ℚ} {m ω : ℚ} (h : IsBendScale β l m ω) (hω : ω ≠ 0) (φ : ℚ) :
    ∃ v ∈ l, bent ω φ v ≠ 0 := by
  by_contra hc
  push Not at hc
  have hall : ∀ v ∈ l, v = φ := by
    intro v hv
    have := hc v hv
    by_contra hne
    have hz : (v - φ) / ω ≠ 0 := div_ne_zero (sub_ne_zero.mpr hne) hω
    unfold bent at this
    rcases lt_or_gt_of_ne hz with h | h
    · have : max (-1) (min 1 ((v - φ) / ω)) < 0 :=
        max_lt (by norm_num) (lt_of_le_of_lt (min_le_right _ _) h)
      linarith
    · have : 0 < max (-1) (min 1 ((v - φ) / ω)) := lt_of_lt_of_le (lt_min one_pos h) (le_max_right _ _)
      linarith
  obtain ⟨a, b, ha, hb, _, hm, _⟩ := h.1.middle
  obtain ⟨v, hv, e⟩ := bendScale_mem h
  rw [hall a ha, hall b hb] at hm
  rw [hall v hv, hm] at e
  apply hω
  rw [← e, show φ - (φ + φ) / 2 = 0 by ring, abs_zero]

theorem percbend_eq (D : TDist) (β : ℚ) (h0 : 0 ≤ β) (h1 : β ≤ 1) (ps : List (ℚ × ℚ)) (mx ωx my ωy : ℚ)
    (hx : IsBendScale β (firsts ps) mx ωx) (hy : IsBendScale β (seconds ps) my ωy) (h2 : ωx ≠ 0) (h3 : ωy ≠ 0) :
    percbend D (firsts ps) (seconds ps) β = .ok (some
      ⟨cosine (bent ωx (bendLocation mx ωx (firsts ps))) (bent ωy (bendLocation my ωy (seconds ps))) ps,
        corrPval D (cosine (bent ωx (bendLocation mx ωx (firsts ps))) (bent ωy (bendLocation my ωy (seconds ps))) ps)
          ps.length⟩) := by
  obtain ⟨ex, mx'⟩ := pbOmega_eq h0 h1 hx
  obtain ⟨ey, my'⟩ := pbOmega_eq h0 h1 hy
  have px : 0 < ωx := lt_of_le_of_ne (bendScale_nonneg hx) (Ne.symm h2)
  have py : 0 < ωy := lt_of_le_of_ne (bendScale_nonneg hy) (Ne.symm h3)
  unfold percbend
  rw [if_neg (by simp [firsts, seconds]), ex, ey]
  simp only [bind, Except.bind]
  rw [pbLocation_eq mx' px, pbLocation_eq my' py,
    option_mapM_some _ _ _ (fun v _ => pbBend_eq ωx _ v h2), option_mapM_some _ _ _ (fun v _ => pbBend_eq ωy _ v h3)]
  generalize bendLocation mx ωx (firsts ps) = φx
  generalize bendLocation my ωy (seconds ps) = φy
  obtain ⟨v, hv, hv0⟩ := bent_ne_zero hx h2 φx
  obtain ⟨w, hw, hw0⟩ := bent_ne_zero hy h3 φy
  have s1 : 0 < (ps.map (fun p => bent ωx φx p.1 ^ 2)).sum := by
    obtain ⟨p, hp, rfl⟩ := List.mem_map.mp hv
    exact sum_sq_pos (fun p : ℚ × ℚ => bent ωx φx p.1) ps p hp hv0
  have s2 : 0 < (ps.map (fun p => bent ωy φy p.2 ^ 2)).sum := by
    obtain ⟨p, hp, rfl⟩ := List.mem_map.mp hw
    exact sum_sq_pos (fun p : ℚ × ℚ => bent ωy φy p.2) ps p hp hw0
  have ez : (List.zipWith (fun a b => a * b) ((firsts ps).map (bent ωx φx)) ((seconds ps).map (bent ωy φy))) =
      ps.map (fun p => bent ωx φx p.1 * bent ωy φy p.2) := by
    rw [firsts, seconds, List.map_map, List.map_map, List.zipWith_map, List.zipWith_self]; rfl
  dsimp only
  rw [ez]
  simp only [firsts, seconds, List.map_map, Function.comp_def]
  have hpos : (0 : ℝ) < (((ps.map (fun p => bent ωx φx p.1 ^ 2)).sum * (ps.map (fun p => bent ωy φy p.2 ^ 2)).sum : ℚ)) := by
    exact_mod_cast mul_pos s1 s2
  rw [if_neg (Real.sqrt_pos.mpr hpos).ne']
  simp only [cosine, List.length_map]

/-- C119: with a positive bending scale of both variables the coefficient is defined; it is `Σ a b / √(Σ a² Σ b²)` over
the cases, where `a` and `b` are the values standardized by location and scale and cut off at ±1; it lies between -1
and 1. -/
theorem C119_value (D : TDist) (β : ℚ) (h0 : 0 ≤ β) (h1 : β ≤ 1) (ps : List (ℚ × ℚ)) (mx ωx my ωy : ℚ)
    (hx : IsBendScale β (firsts ps) mx ωx) (hy : IsBendScale β (seconds ps) my ωy) (h2 : ωx ≠ 0) (h3 : ωy ≠ 0) :
    ∃ res, percbend D (firsts ps) (seconds ps) β = .ok (some res) ∧
      res.r = cosine (bent ωx (bendLocation mx ωx (firsts ps))) (bent ωy (bendLocation my ωy (seconds ps))) ps ∧
      -1 ≤ res.r ∧ res.r ≤ 1 :=
  ⟨_, percbend_eq D β h0 h1 ps mx ωx my ωy hx hy h2 h3, rfl, abs_le.mp (cosine_abs_le _ _ _)⟩

theorem option_mapM_eq {α : Type} (f : α → Option ℚ) (l : List α) :
    l.mapM f = if (∀ a ∈ l, f a ≠ none) then some (l.map (fun a => (f a).getD 0)) else none := by
  induction l with
  | nil => simp
  | cons a l ih =>
    rw [List.mapM_cons, ih]
    cases ha : f a with
    | none =>
      show none = _
      rw [if_neg (fun h => h a (by simp) ha)]
    | some b =>
      by_cases h : ∀ a ∈ l, f a ≠ none
      · rw [if_pos h, if_pos]
        · simp [ha]
        · intro c hc
          rcases List.mem_cons.mp hc with rfl | hc
          · simp [ha]
          · exact h c hc
      · rw [if_neg h, if_neg (fun hh => h (fun c hc => hh c (by simp [hc])))]; rfl

/-- The standardized and cut values of one variable (0 where undefined). -/
def bendOf (ω : ℚ) (l : List ℚ) (v : ℚ) : ℚ := (pbBend ω (pbLocation ω l) v).getD 0

open Classical in
/-- The result in terms of the two scales, also when one is 0. -/
theorem percbend_form (D : TDist) (β : ℚ) (ps : List (ℚ × ℚ)) (ωx ωy : ℚ)
    (ex : pbOmega β (firsts ps) = .ok ωx) (ey : pbOmega β (seconds ps) = .ok ωy) :
    percbend D (firsts ps) (seconds ps) β = .ok
      (if (∀ p ∈ ps, pbBend ωx (pbLocation ωx (firsts ps)) p.1 ≠ none ∧ pbBend ωy (pbLocation ωy (seconds ps)) p.2 ≠ none) ∧
          (ps.map (fun p => bendOf ωx (firsts ps) p.1 ^ 2)).sum * (ps.map (fun p => bendOf ωy (seconds ps) p.2 ^ 2)).sum ≠ 0
        then some ⟨cosine (bendOf ωx (firsts ps)) (bendOf ωy (seconds ps)) ps,
          corrPval D (cosine (bendOf ωx (firsts ps)) (bendOf ωy (seconds ps)) ps) ps.length⟩
        else none) := by
  unfold percbend
  rw [if_neg (by simp [firsts, seconds]), ex, ey]
  simp only [bind, Except.bind]
  rw [option_mapM_eq, option_mapM_eq]
  have hx : (∀ v ∈ firsts ps, pbBend ωx (pbLocation ωx (firsts ps)) v ≠ none) ↔
      ∀ p ∈ ps, pbBend ωx (pbLocation ωx (firsts ps)) p.1 ≠ none := by
    generalize pbLocation ωx (firsts ps) = φ; simp [firsts]
  have hy : (∀ v ∈ seconds ps, pbBend ωy (pbLocation ωy (seconds ps)) v ≠ none) ↔
      ∀ p ∈ ps, pbBend ωy (pbLocation ωy (seconds ps)) p.2 ≠ none := by
    generalize pbLocation ωy (seconds ps) = φ; simp [seconds]
    exact ⟨fun h a b hab => h b a hab, fun h v x hx => h x v hx⟩
  by_cases h1 : ∀ p ∈ ps, pbBend ωx (pbLocation ωx (firsts ps)) p.1 ≠ none
  · by_cases h2 : ∀ p ∈ ps, pbBend ωy (pbLocation ωy (seconds ps)) p.2 ≠ none
    · rw [if_pos (hx.mpr h1), if_pos (hy.mpr h2)]
      dsimp only
      have e1 : (firsts ps).map (fun a => (pbBend ωx (pbLocation ωx (firsts ps)) a).getD 0) =
          ps.map (fun p => bendOf ωx (firsts ps) p.1) := by
        simp only [bendOf]; generalize pbLocation ωx (firsts ps) = φ; simp [firsts]
      have e2 : (seconds ps).map (fun a => (pbBend ωy (pbLocation ωy (seconds ps)) a).getD 0) =
          ps.map (fun p => bendOf ωy (seconds ps) p.2) := by
        simp only [bendOf]; generalize pbLocation ωy (seconds ps) = φ; simp [seconds]
      have el : (firsts ps).length = ps.length := by simp [firsts]
      rw [e1, e2, el, List.zipWith_map, List.zipWith_self]
      simp only [List.map_map, Function.comp_def]
      have n1 := sum_sq_nonneg (fun p : ℚ × ℚ => bendOf ωx (firsts ps) p.1) ps
      have n2 := sum_sq_nonneg (fun p : ℚ × ℚ => bendOf ωy (seconds ps) p.2) ps
      have hz : √((((ps.map (fun p => bendOf ωx (firsts ps) p.1 ^ 2)).sum *
          (ps.map (fun p => bendOf ωy (seconds ps) p.2 ^ 2)).sum : ℚ)) : ℝ) = 0 ↔
          (ps.map (fun p => bendOf ωx (firsts ps) p.1 ^ 2)).sum *
          (ps.map (fun p => bendOf ωy (seconds ps) p.2 ^ 2)).sum = 0 := by
        rw [Real.sqrt_eq_zero (by exact_mod_cast mul_nonneg n1 n2)]; norm_cast
      by_cases hc : (ps.map (fun p => bendOf ωx (firsts ps) p.1 ^ 2)).sum *
          (ps.map (fun p => bendOf ωy (seconds ps) p.2 ^ 2)).sum = 0
      · rw [if_pos (hz.mpr hc), if_neg (fun h => h.2 hc)]
      · rw [if_neg (mt hz.mp hc), if_pos ⟨fun p hp => ⟨h1 p hp, h2 p hp⟩, hc⟩]; rfl
    · refine Eq.trans ?_ (congrArg Except.ok (if_neg (fun h => h2 (fun p hp => (h.1 p hp).2))).symm)
      rw [if_neg (mt hy.mp h2), if_pos (hx.mpr h1)]
  · refine Eq.trans ?_ (congrArg Except.ok (if_neg (fun h => h1 (fun p hp => (h.1 p hp).1))).symm)
    rw [if_neg (mt hx.mp h1)]

theorem empty_percbend (D : TDist) (β : ℚ) : percbend D [] [] β = .error .indexError := by
  unfold percbend pbOmega arrayAt
  rw [if_neg (by simp)]
  simp only [List.map_nil, List.insertionSort_nil, List.length_nil, Nat.cast_zero, mul_zero, add_zero]
  rfl

/-- C119: exchanging the two variables changes nothing. -/
theorem C119_symmetric (D : TDist) (β : ℚ) (h0 : 0 ≤ β) (h1 : β ≤ 1) (ps : List (ℚ × ℚ)) :
    percbend D (seconds ps) (firsts ps) β = percbend D (firsts ps) (seconds ps) β := by
  have e1 : firsts (ps.map Prod.swap) = seconds ps := by simp [firsts, seconds]
  have e2 : seconds (ps.map Prod.swap) = firsts ps := by simp [firsts, seconds]
  by_cases hps : ps = []
  · subst hps; rfl
  obtain ⟨ωx, ex, _⟩ := pbOmega_spec β h0 h1 (firsts ps) (by simpa [firsts] using hps)
  obtain ⟨ωy, ey, _⟩ := pbOmega_spec β h0 h1 (seconds ps) (by simpa [seconds] using hps)
  rw [percbend_form D β ps ωx ωy ex ey]
  have := percbend_form D β (ps.map Prod.swap) ωy ωx (by rw [e1]; exact ey) (by rw [e2]; exact ex)
  rw [e1, e2, cosine_swap] at this
  rw [this]
  simp only [List.map_map, Function.comp_def, Prod.fst_swap, Prod.snd_swap, List.length_map]
  congr 1
  refine if_congr ?_ rfl rfl
  rw [mul_comm (List.sum _)]
  refine and_congr ?_ Iff.rfl
  simp only [List.mem_map, forall_exists_index, and_imp, forall_apply_eq_imp_iff₂, Prod.fst_swap, Prod.snd_swap]
  exact forall₂_congr (fun p _ => and_comm)

theorem bendScale_perm {β : ℚ} {l l' : List ℚ} {m ω : ℚ} (h : IsBendScale β l m ω) (hp : l.Perm l') :
    IsBendScale β l' m ω := by
  obtain ⟨h1, s, p, q, k, e, hk⟩ := h
  exact ⟨h1.perm hp, s, p.trans (hp.map _), q, k, e, hp.length_eq ▸ hk⟩

theorem pbLocation_perm {l l' : List ℚ} (hl : l ≠ []) (ω : ℚ) (hp : l.Perm l') : pbLocation ω l = pbLocation ω l' := by
  have hm : npMedian l' = npMedian l := npMedian_eq ((npMedian_spec l hl).perm hp)
  unfold pbLocation
  dsimp only
  rw [hm, hp.countP_eq, hp.countP_eq, (hp.map _).sum_eq, hp.length_eq]

/-- C119: the order of the cases does not matter. -/
theorem C119_order (D : TDist) (β : ℚ) (h0 : 0 ≤ β) (h1 : β ≤ 1) (ps qs : List (ℚ × ℚ)) (hp : ps.Perm qs) :
    percbend D (firsts ps) (seconds ps) β = percbend D (firsts qs) (seconds qs) β := by
  by_cases hps : ps = []
  · subst hps; rw [List.nil_perm.mp hp]
  have f0 : firsts ps ≠ [] := by simpa [firsts] using hps
  have s0 : seconds ps ≠ [] := by simpa [seconds] using hps
  have p1 : (firsts ps).Perm (firsts qs) := hp.map _
  have p2 : (seconds ps).Perm (seconds qs) := hp.map _
  obtain ⟨ωx, ex, hx⟩ := pbOmega_spec β h0 h1 (firsts ps) f0
  obtain ⟨ωy, ey, hy⟩ := pbOmega_spec β h0 h1 (seconds ps) s0
  rw [percbend_form D β ps ωx ωy ex ey, percbend_form D β qs ωx ωy (pbOmega_eq h0 h1 (bendScale_perm hx p1)).1
    (pbOmega_eq h0 h1 (bendScale_perm hy p2)).1]
  have b1 : bendOf ωx (firsts qs) = bendOf ωx (firsts ps) := by
    funext v; rw [bendOf, bendOf, pbLocation_perm f0 ωx p1]
  have b2 : bendOf ωy (seconds qs) = bendOf ωy (seconds ps) := by
    funext v; rw [bendOf, bendOf, pbLocation_perm s0 ωy p2]
  rw [b1, b2, ← pbLocation_perm f0 ωx p1, ← pbLocation_perm s0 ωy p2, cosine_perm _ _ hp, hp.length_eq,
    (hp.map (fun p : ℚ × ℚ => bendOf ωx (firsts ps) p.1 ^ 2)).sum_eq,
    (hp.map (fun p : ℚ × ℚ => bendOf ωy (seconds ps) p.2 ^ 2)).sum_eq]
  simp only [hp.mem_iff]

/-- C119: a variable with a positive bending scale correlates perfectly with itself. -/
theorem C119_self (D : TDist) (β : ℚ) (h0 : 0 ≤ β) (h1 : β ≤ 1) (x : List ℚ) (m ω : ℚ) (hx : IsBendScale β x m ω)
    (hω : ω ≠ 0) : ∃ res, percbend D x x β = .ok (some res) ∧ res.r = 1 := by
  have e1 : firsts (x.map (fun v => (v, v))) = x := by simp [firsts, Function.comp_def]
  have e2 : seconds (x.map (fun v => (v, v))) = x := by simp [seconds, Function.comp_def]
  have := percbend_eq D β h0 h1 (x.map (fun v => (v, v))) m ω m ω (by rw [e1]; exact hx) (by rw [e2]; exact hx) hω hω
  rw [e1, e2] at this
  refine ⟨_, this, ?_⟩
  obtain ⟨v, hv, hv0⟩ := bent_ne_zero hx hω (bendLocation m ω x)
  have hs := sum_sq_pos (bent ω (bendLocation m ω x)) x v hv hv0
  have hs' : (0 : ℝ) < ((x.map (fun v => bent ω (bendLocation m ω x) v ^ 2)).sum : ℚ) := by exact_mod_cast hs
  simp only [cosine, List.map_map, Function.comp_def, ← pow_two]
  rw [Rat.cast_pow, Real.sqrt_sq hs'.le, div_self hs'.ne']

theorem bendScale_affine {β : ℚ} {l : List ℚ} {m ω : ℚ} (h : IsBendScale β l m ω) (a b : ℚ) :
    IsBendScale β (l.map (fun v => a * v + b)) (a * m + b) (|a| * ω) := by
  obtain ⟨h1, s, p, q, k, e, hk⟩ := h
  refine ⟨h1.affine a b, s.map (fun v => |a| * v), ?_, ?_, k, ?_, by simpa using hk⟩
  · have := p.map (fun v => |a| * v)
    rw [List.map_map] at this ⊢
    convert this using 2
    funext v
    simp only [Function.comp]
    rw [← abs_mul]; congr 1; ring
  · exact List.pairwise_map.mpr (q.imp (fun {u v} huv => mul_le_mul_of_nonneg_left huv (abs_nonneg a)))
  · rw [List.getElem?_map, e]; rfl

theorem sgn_mul (a : ℚ) (ha : a ≠ 0) : a = (if a < 0 then -1 else 1) * |a| := by
  by_cases h : a < 0
  · rw [if_pos h, abs_of_neg h]; ring
  · rw [if_neg h, abs_of_nonneg (not_lt.mp h)]; ring

theorem pbPsi_affine (a b m ω v : ℚ) (ha : a ≠ 0) :
    pbPsi (a * m + b) (|a| * ω) (a * v + b) = (if a < 0 then -1 else 1) * pbPsi m ω v := by
  have h0 : |a| ≠ 0 := abs_ne_zero.mpr ha
  unfold pbPsi
  by_cases h : ω = 0
  · simp [h]
  · rw [if_neg h, if_neg (mul_ne_zero h0 h)]
    have e : a * v + b - (a * m + b) = (if a < 0 then -1 else 1) * (|a| * (v - m)) := by
      rw [← mul_assoc, ← sgn_mul a ha]; ring
    rw [e, mul_div_assoc, mul_div_mul_left _ _ h0]

theorem pbLocation_affine {l : List ℚ} {m ω β : ℚ} (h : IsBendScale β l m ω) (a b : ℚ) (ha : a ≠ 0) :
    pbLocation (|a| * ω) (l.map (fun v => a * v + b)) = a * pbLocation ω l + b := by
  have hm : npMedian l = m := npMedian_eq h.1
  have hm' : npMedian (l.map (fun v => a * v + b)) = a * m + b := npMedian_eq (h.1.affine a b)
  have hω := bendScale_nonneg h
  obtain ⟨u, hu, hue⟩ := bendScale_mem h
  have hden : (l.length : ℚ) - l.countP (fun v => pbPsi m ω v < -1) - l.countP (fun v => pbPsi m ω v > 1) ≠ 0 := by
    have hex : ∀ k : List ℚ, (k.countP (fun v => pbPsi m ω v < -1) + k.countP (fun v => pbPsi m ω v > 1) ≤ k.length) ∧
        ((∃ u ∈ k, ¬ pbPsi m ω u < -1 ∧ ¬ pbPsi m ω u > 1) →
          k.countP (fun v => pbPsi m ω v < -1) + k.countP (fun v => pbPsi m ω v > 1) < k.length) := by
      intro k
      induction k with
      | nil => simp
      | cons c k ih =>
        rw [List.countP_cons, List.countP_cons, List.length_cons]
        have hno : ¬ (pbPsi m ω c < -1 ∧ pbPsi m ω c > 1) := by rintro ⟨x, y⟩; linarith
        have hsum : (if decide (pbPsi m ω c < -1) = true then 1 else 0) +
            (if decide (pbPsi m ω c > 1) = true then 1 else 0) ≤ 1 := by
          by_cases x : pbPsi m ω c < -1
          · have y : ¬ pbPsi m ω c > 1 := fun y => hno ⟨x, y⟩
            simp [x, y]
          · by_cases y : pbPsi m ω c > 1 <;> simp [x, y]
        refine ⟨by omega, ?_⟩
        rintro ⟨u, hu, h1, h2⟩
        rcases List.mem_cons.mp hu with rfl | hu
        · simp only [h1, h2, decide_false, Bool.false_eq_true, if_false]; omega
        · have := ih.2 ⟨u, hu, h1, h2⟩; omega
    have hin : ¬ pbPsi m ω u < -1 ∧ ¬ pbPsi m ω u > 1 := by
      rcases hω.eq_or_lt with h | h
      · subst h; simp [pbPsi]
      · rw [psi_low m ω u h, psi_high m ω u h]; exact (inside_iff m ω u).mp hue.le
    have := (hex l).2 ⟨u, hu, hin⟩
    have h' : ((l.countP (fun v => pbPsi m ω v < -1) + l.countP (fun v => pbPsi m ω v > 1) : ℕ) : ℚ) < l.length := by
      exact_mod_cast this
    push_cast at h'
    intro hc; linarith
  have hsum : ∀ k : List ℚ,
      ((k.map (fun v => a * v + b)).map (fun v => if pbPsi (a * m + b) (|a| * ω) v < -1 ∨ pbPsi (a * m + b) (|a| * ω) v > 1
        then 0 else v)).sum = a * (k.map (fun v => if pbPsi m ω v < -1 ∨ pbPsi m ω v > 1 then 0 else v)).sum +
        b * ((k.length : ℚ) - k.countP (fun v => pbPsi m ω v < -1) - k.countP (fun v => pbPsi m ω v > 1)) ∧
      ((k.map (fun v => a * v + b)).countP (fun v => pbPsi (a * m + b) (|a| * ω) v < -1) : ℚ) =
        (if a < 0 then k.countP (fun v => pbPsi m ω v > 1) else k.countP (fun v => pbPsi m ω v < -1)) ∧
      ((k.map (fun v => a * v + b)).countP (fun v => pbPsi (a * m + b) (|a| * ω) v > 1) : ℚ) =
        (if a < 0 then k.countP (fun v => pbPsi m ω v < -1) else k.countP (fun v => pbPsi m ω v > 1)) := by
    intro k
    induction k with
    | nil => simp
    | cons c k ih =>
      obtain ⟨i1, i2, i3⟩ := ih
      simp only [List.map_cons, List.sum_cons, List.countP_cons, List.length_cons, pbPsi_affine a b m ω c ha, i1]
      push_cast
      rw [i2, i3]
      by_cases hneg : a < 0
      · simp only [hneg, if_true, if_pos]
        by_cases x : pbPsi m ω c < -1
        · have y : ¬ pbPsi m ω c > 1 := by intro y; linarith
          have x' : -1 * pbPsi m ω c > 1 := by linarith
          have y' : ¬ -1 * pbPsi m ω c < -1 := by intro y; linarith
          refine ⟨?_, ?_, ?_⟩ <;> simp only [x, y, x', y', or_true, true_or, if_true, decide_true, decide_false,
            Bool.false_eq_true, if_false, Nat.cast_one, Nat.cast_zero] <;> ring
        · by_cases y : pbPsi m ω c > 1
          · have x' : ¬ -1 * pbPsi m ω c > 1 := by intro y; linarith
            have y' : -1 * pbPsi m ω c < -1 := by linarith
            refine ⟨?_, ?_, ?_⟩ <;> simp only [x, y, x', y', or_true, true_or, if_true, decide_true, decide_false,
              Bool.false_eq_true, if_false, Nat.cast_one, Nat.cast_zero] <;> ring
          · have x' : ¬ -1 * pbPsi m ω c > 1 := by intro h; exact x (by linarith)
            have y' : ¬ -1 * pbPsi m ω c < -1 := by intro h; exact y (by linarith)
            refine ⟨?_, ?_, ?_⟩ <;> simp only [x, y, x', y', or_false, if_true, decide_true, decide_false,
              Bool.false_eq_true, if_false, Nat.cast_one, Nat.cast_zero] <;> ring
      · simp only [hneg, if_false, one_mul]
        by_cases x : pbPsi m ω c < -1
        · have y : ¬ pbPsi m ω c > 1 := by intro y; linarith
          refine ⟨?_, ?_, ?_⟩ <;> simp only [x, y, or_true, true_or, if_true, decide_true, decide_false,
            Bool.false_eq_true, if_false, Nat.cast_one, Nat.cast_zero] <;> ring
        · by_cases y : pbPsi m ω c > 1
          · refine ⟨?_, ?_, ?_⟩ <;> simp only [x, y, or_true, true_or, if_true, decide_true, decide_false,
              Bool.false_eq_true, if_false, Nat.cast_one, Nat.cast_zero] <;> ring
          · refine ⟨?_, ?_, ?_⟩ <;> simp only [x, y, or_false, if_true, decide_true, decide_false,
              Bool.false_eq_true, if_false, Nat.cast_one, Nat.cast_zero] <;> ring
  obtain ⟨k1, k2, k3⟩ := hsum l
  unfold pbLocation
  dsimp only
  rw [hm, hm', k1, k2, k3, List.length_map]
  generalize (l.map (fun v => if pbPsi m ω v < -1 ∨ pbPsi m ω v > 1 then 0 else v)).sum = S
  by_cases hneg : a < 0
  · rw [if_pos hneg, if_pos hneg, abs_of_neg hneg]
    generalize (l.countP (fun v => decide (pbPsi m ω v < -1)) : ℚ) = i1 at *
    generalize (l.countP (fun v => decide (pbPsi m ω v > 1)) : ℚ) = i2 at *
    rw [show (l.length : ℚ) - i2 - i1 = l.length - i1 - i2 by ring]
    field_simp
    ring
  · rw [if_neg hneg, if_neg hneg, abs_of_nonneg (not_lt.mp hneg)]
    generalize (l.countP (fun v => decide (pbPsi m ω v < -1)) : ℚ) = i1 at *
    generalize (l.countP (fun v => decide (pbPsi m ω v > 1)) : ℚ) = i2 at *
    field_simp
    ring

theorem pbBend_affine (a b ω φ v : ℚ) (ha : a ≠ 0) :
    pbBend (|a| * ω) (a * φ + b) (a * v + b) = (pbBend ω φ v).map (fun z => (if a < 0 then -1 else 1) * z) := by
  have h0 : |a| ≠ 0 := abs_ne_zero.mpr ha
  by_cases h : ω = 0
  · unfold pbBend
    rw [if_pos h, if_pos (by rw [h, mul_zero])]
    have he : a * v + b = a * φ + b ↔ v = φ := by rw [add_left_inj, mul_right_inj' ha]
    by_cases hv : v = φ
    · rw [if_pos hv, if_pos (he.mpr hv)]; rfl
    · rw [if_neg hv, if_neg (mt he.mp hv)]
      by_cases hneg : a < 0
      · have : a * v + b < a * φ + b ↔ φ < v := by
          rw [add_lt_add_iff_right]; exact mul_lt_mul_left_of_neg hneg
        by_cases hlt : v < φ
        · rw [if_pos hlt, if_neg (fun h => absurd (this.mp h) (not_lt.mpr hlt.le)), if_pos hneg]; norm_num
        · rw [if_neg hlt, if_pos (this.mpr (lt_of_le_of_ne (not_lt.mp hlt) (Ne.symm hv))), if_pos hneg]; norm_num
      · have hpos : 0 < a := lt_of_le_of_ne (not_lt.mp hneg) (Ne.symm ha)
        have : a * v + b < a * φ + b ↔ v < φ := by
          rw [add_lt_add_iff_right]; exact mul_lt_mul_iff_of_pos_left hpos
        simp only [this, if_neg hneg]
        split <;> norm_num
  · rw [pbBend_eq _ _ _ h, pbBend_eq _ _ _ (mul_ne_zero h0 h), Option.map_some]
    congr 1
    unfold bent
    have e : a * v + b - (a * φ + b) = (if a < 0 then -1 else 1) * (|a| * (v - φ)) := by
      rw [← mul_assoc, ← sgn_mul a ha]; ring
    rw [e, mul_div_assoc, mul_div_mul_left _ _ h0]
    generalize (v - φ) / ω = z
    by_cases hneg : a < 0
    · rw [if_pos hneg]
      rcases le_total z 1 with h1 | h1 <;> rcases le_total (-1) z with h2 | h2
      · rw [min_eq_right h1, max_eq_right h2, min_eq_right (by linarith), max_eq_right (by linarith)]
      · rw [min_eq_right h1, max_eq_left h2, min_eq_left (by linarith), max_eq_right (by norm_num)]; norm_num
      · have e1 : max (-1) (min 1 z) = 1 := by rw [min_eq_left h1]; norm_num
        have e2 : max (-1) (min 1 (-1 * z)) = -1 := by rw [min_eq_right (by linarith), max_eq_left (by linarith)]
        rw [e1, e2]; norm_num
      · linarith
    · rw [if_neg hneg, one_mul, one_mul]

/-- C119: changing the unit and the origin of a variable changes at most the sign of the coefficient, according to the
direction of the change; whether it is defined does not change. -/
theorem C119_affine (D : TDist) (β : ℚ) (h0 : 0 ≤ β) (h1 : β ≤ 1) (ps : List (ℚ × ℚ)) (hps : ps ≠ []) (a b : ℚ)
    (ha : a ≠ 0) :
    ∃ o o', percbend D (firsts ps) (seconds ps) β = .ok o ∧
      percbend D ((firsts ps).map (fun v => a * v + b)) (seconds ps) β = .ok o' ∧
      o'.map CorrResult.r = o.map (fun res => (if a < 0 then -1 else 1) * res.r) := by
  have e1 : firsts (ps.map (fun p => (a * p.1 + b, p.2))) = (firsts ps).map (fun v => a * v + b) := by simp [firsts]
  have e2 : seconds (ps.map (fun p => (a * p.1 + b, p.2))) = seconds ps := by simp [seconds]
  obtain ⟨ωx, ex, hx⟩ := pbOmega_spec β h0 h1 (firsts ps) (by simpa [firsts] using hps)
  obtain ⟨ωy, ey, hy⟩ := pbOmega_spec β h0 h1 (seconds ps) (by simpa [seconds] using hps)
  have hx' := bendScale_affine hx a b
  have f2 := percbend_form D β (ps.map (fun p => (a * p.1 + b, p.2))) (|a| * ωx) ωy
    (by rw [e1]; exact (pbOmega_eq h0 h1 hx').1) (by rw [e2]; exact ey)
  rw [e1, e2] at f2
  refine ⟨_, _, percbend_form D β ps ωx ωy ex ey, f2, ?_⟩
  have hb : ∀ v, bendOf (|a| * ωx) ((firsts ps).map (fun v => a * v + b)) (a * v + b) =
      (if a < 0 then -1 else 1) * bendOf ωx (firsts ps) v := by
    intro v
    rw [bendOf, bendOf, pbLocation_affine hx a b ha, pbBend_affine a b _ _ _ ha]
    cases pbBend ωx (pbLocation ωx (firsts ps)) v <;> simp
  have hsq : ∀ v, (bendOf (|a| * ωx) ((firsts ps).map (fun v => a * v + b)) (a * v + b)) ^ 2 =
      (bendOf ωx (firsts ps) v) ^ 2 := by
    intro v; rw [hb, mul_pow]; split <;> norm_num
  have hcos : cosine (bendOf (|a| * ωx) ((firsts ps).map (fun v => a * v + b))) (bendOf ωy (seconds ps))
      (ps.map (fun p => (a * p.1 + b, p.2))) =
      (if a < 0 then -1 else 1) * cosine (bendOf ωx (firsts ps)) (bendOf ωy (seconds ps)) ps := by
    have := cosine_scale (bendOf ωx (firsts ps)) (bendOf ωy (seconds ps)) (if a < 0 then -1 else 1) ps
    have hs : (if (if a < 0 then (-1 : ℚ) else 1) < 0 then (-1 : ℝ) else if (if a < 0 then (-1 : ℚ) else 1) = 0 then 0 else 1)
        = if a < 0 then -1 else 1 := by split <;> norm_num
    rw [hs] at this
    rw [← this]
    simp only [cosine, List.map_map, Function.comp_def, hb]
  rw [hcos]
  simp only [List.map_map, Function.comp_def, hsq, List.length_map]
  have hcond : (∀ p ∈ ps.map (fun p => (a * p.1 + b, p.2)),
        pbBend (|a| * ωx) (pbLocation (|a| * ωx) ((firsts ps).map (fun v => a * v + b))) p.1 ≠ none ∧
        pbBend ωy (pbLocation ωy (seconds ps)) p.2 ≠ none) ↔
      (∀ p ∈ ps, pbBend ωx (pbLocation ωx (firsts ps)) p.1 ≠ none ∧ pbBend ωy (pbLocation ωy (seconds ps)) p.2 ≠ none) := by
    simp only [List.mem_map, forall_exists_index, and_imp, forall_apply_eq_imp_iff₂, pbLocation_affine hx a b ha,
      pbBend_affine a b _ _ _ ha, ne_eq, Option.map_eq_none_iff]
  simp only [hcond]
  split <;> rfl

/-- C119: when at least `⌊(1 - β) n⌋` values of a variable equal its median (scale 0), the coefficient is undefined if
some value equals the mean; otherwise every value only counts by the side of the mean it is on. -/
theorem C119_zero_scale (D : TDist) (β : ℚ) (h0 : 0 ≤ β) (h1 : β ≤ 1) (ps : List (ℚ × ℚ)) (mx my ωy : ℚ)
    (hx : IsBendScale β (firsts ps) mx 0) (hy : IsBendScale β (seconds ps) my ωy) (h3 : ωy ≠ 0) :
    ((firsts ps).sum / (firsts ps).length ∈ firsts ps → percbend D (firsts ps) (seconds ps) β = .ok none) ∧
    ((firsts ps).sum / (firsts ps).length ∉ firsts ps → ∃ res, percbend D (firsts ps) (seconds ps) β = .ok (some res) ∧
      res.r = cosine (fun v => if v < (firsts ps).sum / (firsts ps).length then -1 else 1)
        (bent ωy (bendLocation my ωy (seconds ps))) ps) := by
  obtain ⟨ex, _⟩ := pbOmega_eq h0 h1 hx
  obtain ⟨ey, my'⟩ := pbOmega_eq h0 h1 hy
  have py : 0 < ωy := lt_of_le_of_ne (bendScale_nonneg hy) (Ne.symm h3)
  have hloc : pbLocation 0 (firsts ps) = (firsts ps).sum / (firsts ps).length := by
    unfold pbLocation
    have a1 : ¬ ((0 : ℚ) < -1) := by norm_num
    have a2 : ¬ ((0 : ℚ) > 1) := by norm_num
    have a2' : ¬ ((1 : ℚ) < 0) := by norm_num
    simp [pbPsi, a1, a2']
  have form := percbend_form D β ps 0 ωy ex ey
  rw [hloc, pbLocation_eq my' py] at form
  have hb : ∀ v, bendOf ωy (seconds ps) v = bent ωy (bendLocation my ωy (seconds ps)) v := by
    intro v; rw [bendOf, pbLocation_eq my' py, pbBend_eq _ _ _ h3]; rfl
  have hb' : bendOf ωy (seconds ps) = bent ωy (bendLocation my ωy (seconds ps)) := funext hb
  rw [hb'] at form
  generalize (firsts ps).sum / (firsts ps).length = μ at *
  have hbx : ∀ v, bendOf 0 (firsts ps) v = if v = μ then 0 else if v < μ then -1 else 1 := by
    intro v; rw [bendOf, hloc, pbBend, if_pos rfl]; split
    · rfl
    · split <;> rfl
  constructor
  · intro hmem
    rw [form, if_neg]
    rintro ⟨h, _⟩
    obtain ⟨p, hp, rfl⟩ := List.mem_map.mp hmem
    exact (h p hp).1 (by rw [pbBend, if_pos rfl, if_pos rfl])
  · intro hmem
    have hne : ∀ p ∈ ps, p.1 ≠ μ := fun p hp h => hmem (List.mem_map.mpr ⟨p, hp, h⟩)
    have hpx : ∀ p ∈ ps, bendOf 0 (firsts ps) p.1 = if p.1 < μ then -1 else 1 := by
      intro p hp; rw [hbx, if_neg (hne p hp)]
    obtain ⟨w, hw, hw0⟩ := bent_ne_zero hy h3 (bendLocation my ωy (seconds ps))
    obtain ⟨p, hp, rfl⟩ := List.mem_map.mp hw
    have s2 := sum_sq_pos (fun p : ℚ × ℚ => bent ωy (bendLocation my ωy (seconds ps)) p.2) ps p hp hw0
    have s1 := sum_sq_pos (fun p : ℚ × ℚ => bendOf 0 (firsts ps) p.1) ps p hp
      (by rw [hpx p hp]; split <;> norm_num)
    rw [form, if_pos]
    · refine ⟨_, rfl, ?_⟩
      dsimp only
      unfold cosine
      rw [List.map_congr_left (g := fun p : ℚ × ℚ => (if p.1 < μ then -1 else 1) *
          bent ωy (bendLocation my ωy (seconds ps)) p.2) (fun p hp => by rw [hpx p hp]),
        List.map_congr_left (g := fun p : ℚ × ℚ => (if p.1 < μ then -1 else 1) ^ 2)
          (f := fun p : ℚ × ℚ => bendOf 0 (firsts ps) p.1 ^ 2) (fun p hp => by rw [hpx p hp])]
    · refine ⟨fun p hp => ⟨?_, by rw [pbBend_eq _ _ _ h3]; simp⟩, (mul_pos s1 s2).ne'⟩
      rw [pbBend, if_pos rfl, if_neg (hne p hp)]
      split <;> simp

/-- C119: without a case, or with different numbers of values, the function raises. -/
theorem C119_errors (D : TDist) (β : ℚ) :
    percbend D [] [] β = .error .indexError ∧
    ∀ x y : List ℚ, x.length ≠ y.length → percbend D x y β = .error .valueError :=
  ⟨empty_percbend D β, fun x y h => by rw [percbend, if_pos h]⟩

/-- C119: the p-value, as in C118. -/
theorem C119_pvalue (D : TDist) (β : ℚ) (h0 : 0 ≤ β) (h1 : β ≤ 1) (ps : List (ℚ × ℚ)) (res : CorrResult)
    (h : percbend D (firsts ps) (seconds ps) β = .ok (some res)) :
    -1 ≤ res.r ∧ res.r ≤ 1 ∧
    (ps.length ≤ 2 → res.pval = none) ∧
    (2 < ps.length → IsDist D ((ps.length : ℝ) - 2) → ∃ p, res.pval = some p ∧ 0 ≤ p ∧ p ≤ 1 ∧
      (res.r = 0 → p = 1) ∧ (|res.r| = 1 → p = 0) ∧
      ∀ qs res', qs.length = ps.length → percbend D (firsts qs) (seconds qs) β = .ok (some res') → |res.r| < |res'.r| →
        ∃ p', res'.pval = some p' ∧ (p' < p ∨ |res'.r| = 1 ∧ p' = 0)) := by
  have key : ∀ qs res', percbend D (firsts qs) (seconds qs) β = .ok (some res') →
      res'.pval = corrPval D res'.r qs.length ∧ |res'.r| ≤ 1 := by
    intro qs res' h
    by_cases hq : qs = []
    · subst hq; rw [show firsts [] = [] from rfl, show seconds [] = [] from rfl, empty_percbend] at h; cases h
    obtain ⟨ωx, ex, hx⟩ := pbOmega_spec β h0 h1 (firsts qs) (by simpa [firsts] using hq)
    obtain ⟨ωy, ey, hy⟩ := pbOmega_spec β h0 h1 (seconds qs) (by simpa [seconds] using hq)
    rw [percbend_form D β qs ωx ωy ex ey, Except.ok.injEq] at h
    split at h
    · simp only [Option.some.injEq] at h
      subst h
      exact ⟨rfl, cosine_abs_le _ _ _⟩
    · cases h
  obtain ⟨k1, k2⟩ := key ps res h
  refine ⟨(abs_le.mp k2).1, (abs_le.mp k2).2, ?_, ?_⟩
  · intro hl; rw [k1, corrPval, if_pos hl]
  · intro hl hD
    obtain ⟨p, e, a1, a2, a3, a4, a5⟩ := corrPval_facts D ps.length hl hD res.r k2
    refine ⟨p, k1.trans e, a1, a2, a3, a4, ?_⟩
    intro qs res' hq hb hlt
    obtain ⟨l1, l2⟩ := key qs res' hb
    obtain ⟨p', e', h'⟩ := a5 res'.r l2 hlt
    exact ⟨p', by rw [l1, hq]; exact e', h'⟩

/-- A case: five values, so `m = 4` and the scale is the fourth smallest deviation. -/
theorem exBend_x : IsBendScale (1 / 5) (firsts exBicor) 3 2 :=
  ⟨exBicor_x.1, [0, 1, 1, 2, 97], by decide +kernel, by decide +kernel, 3, by decide +kernel,
    Or.inl (by norm_num [firsts, exBicor])⟩
theorem exBend_y : IsBendScale (1 / 5) (seconds exBicor) 2 1 :=
  ⟨exBicor_y.1, [0, 0, 1, 1, 2], by decide +kernel, by decide +kernel, 3, by decide +kernel,
    Or.inl (by norm_num [seconds, exBicor])⟩

example : bendLocation 3 2 (firsts exBicor) = 3 ∧ bent 2 3 100 = 1 ∧ bent 2 3 2 = -1 / 2 := by decide +kernel

example (D : TDist) : ∃ res, percbend D (firsts exBicor) (seconds exBicor) = .ok (some res) ∧ res.r ≤ 1 := by
  obtain ⟨res, h, _, _, h'⟩ := C119_value D (1 / 5) (by norm_num) (by norm_num) exBicor 3 2 2 1 exBend_x exBend_y
    (by norm_num) (by norm_num)
  exact ⟨res, h, h'⟩

/-- A case with scale 0 that still gives a number. -/
example (D : TDist) : ∃ res, percbend D [0, 0, 0, 0, 1] [1, 2, 2, 4, 3] = .ok (some res) := by
  have hx : IsBendScale (1 / 5) [0, 0, 0, 0, 1] 0 0 :=
    ⟨⟨[0, 0, 0, 0, 1], List.Perm.refl _, by decide +kernel, 0, 0, rfl, rfl, by norm_num⟩,
      [0, 0, 0, 0, 1], by decide +kernel, by decide +kernel, 3, rfl, Or.inl (by norm_num)⟩
  obtain ⟨res, h, _⟩ := (C119_zero_scale D (1 / 5) (by norm_num) (by norm_num)
    [(0, 1), (0, 2), (0, 2), (0, 4), (1, 3)] 0 2 1 hx exBend_y (by norm_num)).2 (by decide +kernel)
  exact ⟨res, h⟩

end Metcalcpy.Props
