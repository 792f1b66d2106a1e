/-
C143  The OMI filter keeps exactly the components with periods inside the band.
-/
import Verif.Model.MjoIndex
import Mathlib.Tactic.Linarith
import Mathlib.Tactic.FieldSimp
import Mathlib.Tactic.Ring
import Mathlib.Tactic.NormNum
import Mathlib.Tactic.Positivity

namespace Metcalcpy.Props
open Metcalcpy

theorem foldl_zeroAt {α : Type} [Zero α] (L : List (ℕ × ℕ)) (S : ℕ → ℕ → α) (i j : ℕ) :
    L.foldl zeroAt S i j = if (i, j) ∈ L then 0 else S i j := by
  induction L generalizing S with
  | nil => simp
  | cons p L ih =>
    rw [List.foldl_cons, ih]
    unfold zeroAt
    by_cases hL : (i, j) ∈ L
    · simp [hL]
    · rw [if_neg hL]
      by_cases hp : i = p.1 ∧ j = p.2
      · have : (i, j) = p := Prod.ext hp.1 hp.2
        simp [hp, this]
      · have : (i, j) ≠ p := fun h => hp ⟨congrArg Prod.fst h, congrArg Prod.snd h⟩
        simp [hp, this, hL]

open Classical in
theorem foldl_bandStep {α : Type} [Zero α] (keep : ℕ → ℕ → Bool) (nt nl : ℕ) (P : List (ℕ × ℕ)) (S : ℕ → ℕ → α) (i j : ℕ) :
    P.foldl (bandStep keep nt nl) S i j =
      if ∃ p ∈ P, keep p.1 p.2 = false ∧ (i, j) ∈ zeroedFrom nt nl p.1 p.2 then 0 else S i j := by
  induction P generalizing S with
  | nil => simp
  | cons p P ih =>
    rw [List.foldl_cons, ih]
    unfold bandStep
    by_cases hP : ∃ p ∈ P, keep p.1 p.2 = false ∧ (i, j) ∈ zeroedFrom nt nl p.1 p.2
    · rw [if_pos hP, if_pos]
      obtain ⟨q, hq, h⟩ := hP
      exact ⟨q, List.mem_cons_of_mem _ hq, h⟩
    · rw [if_neg hP]
      cases hk : keep p.1 p.2 with
      | true =>
        rw [if_pos rfl, if_neg]
        rintro ⟨q, hq, h1, h2⟩
        rw [List.mem_cons] at hq
        rcases hq with rfl | hq
        · rw [hk] at h1; cases h1
        · exact hP ⟨q, hq, h1, h2⟩
      | false =>
        rw [if_neg (by simp), foldl_zeroAt]
        by_cases hz : (i, j) ∈ zeroedFrom nt nl p.1 p.2
        · rw [if_pos hz, if_pos ⟨p, List.mem_cons_self, hk, hz⟩]
        · rw [if_neg hz, if_neg]
          rintro ⟨q, hq, h1, h2⟩
          rw [List.mem_cons] at hq
          rcases hq with rfl | hq
          · exact hz h2
          · exact hP ⟨q, hq, h1, h2⟩

/-- The position of the conjugate component. -/
def mirrorPos (n i : ℕ) : ℕ := (n - i) % n

theorem mirrorPos_lt {n i : ℕ} (h : 0 < n) : mirrorPos n i < n := Nat.mod_lt _ h

theorem mirrorPos_of_pos {n i : ℕ} (h0 : 0 < i) (hi : i < n) : mirrorPos n i = n - i := Nat.mod_eq_of_lt (by omega)

theorem mirrorPos_zero (n : ℕ) : mirrorPos n 0 = 0 := by simp [mirrorPos]

theorem mirrorPos_mirrorPos {n i : ℕ} (hi : i < n) : mirrorPos n (mirrorPos n i) = i := by
  rcases Nat.eq_zero_or_pos i with rfl | h0
  · rw [mirrorPos_zero, mirrorPos_zero]
  · rw [mirrorPos_of_pos h0 hi, mirrorPos_of_pos (by omega) (by omega)]; omega

theorem mem_zeroedFrom {nt nl i j a b : ℕ} (hi : i < nt) (hj : j < nl) :
    (a, b) ∈ zeroedFrom nt nl i j ↔ (a = i ∧ b = j) ∨ (a = mirrorPos nt i ∧ b = mirrorPos nl j) := by
  unfold zeroedFrom
  rw [List.mem_cons, Prod.mk.injEq]
  rcases Nat.eq_zero_or_pos j with rfl | hj0
  · rcases Nat.eq_zero_or_pos i with rfl | hi0
    · rw [if_pos ⟨rfl, rfl⟩, mirrorPos_zero, mirrorPos_zero]
      simp
    · rw [if_neg (by omega), if_pos rfl, if_pos (by omega), mirrorPos_zero, mirrorPos_of_pos hi0 hi]
      simp
  · rw [if_neg (by omega), if_neg (by omega), mirrorPos_of_pos hj0 hj]
    rcases Nat.eq_zero_or_pos i with rfl | hi0
    · rw [if_pos rfl, if_pos (by omega), mirrorPos_zero]; simp
    · rw [if_neg (by omega), if_pos (by omega), mirrorPos_of_pos hi0 hi]; simp

/-- A component at position (a, b) survives the loops when neither the test at its own position nor the test at the
conjugate position, as far as they are made, fails. -/
def Survives (keep : ℕ → ℕ → Bool) (nt nl a b : ℕ) : Prop :=
  (a ≤ nt / 2 → keep a b = true) ∧ (mirrorPos nt a ≤ nt / 2 → keep (mirrorPos nt a) (mirrorPos nl b) = true)

open Classical in
theorem loops_eq {α : Type} [Zero α] (keep : ℕ → ℕ → Bool) (nt nl : ℕ) (S : ℕ → ℕ → α) (a b : ℕ) (ha : a < nt)
    (hb : b < nl) :
    ((List.range (nt / 2 + 1)).flatMap fun i => (List.range nl).map fun j => (i, j)).foldl (bandStep keep nt nl) S a b =
      if Survives keep nt nl a b then S a b else 0 := by
  rw [foldl_bandStep]
  have hiff : (∃ p ∈ (List.range (nt / 2 + 1)).flatMap fun i => (List.range nl).map fun j => (i, j),
      keep p.1 p.2 = false ∧ (a, b) ∈ zeroedFrom nt nl p.1 p.2) ↔ ¬ Survives keep nt nl a b := by
    have hmem : ∀ p : ℕ × ℕ, p ∈ ((List.range (nt / 2 + 1)).flatMap fun i => (List.range nl).map fun j => (i, j)) ↔
        p.1 ≤ nt / 2 ∧ p.2 < nl := by
      intro p
      simp only [List.mem_flatMap, List.mem_map, List.mem_range]
      constructor
      · rintro ⟨i, hi, j, hj, rfl⟩
        exact ⟨by simp; omega, hj⟩
      · rintro ⟨h1, h2⟩
        exact ⟨p.1, by omega, p.2, h2, rfl⟩
    unfold Survives
    constructor
    · rintro ⟨p, hp, hk, hz⟩ ⟨h1, h2⟩
      rw [hmem] at hp
      have hpnt : p.1 < nt := by omega
      rw [mem_zeroedFrom hpnt hp.2] at hz
      rcases hz with ⟨rfl, rfl⟩ | ⟨rfl, rfl⟩
      · rw [h1 hp.1] at hk; cases hk
      · rw [mirrorPos_mirrorPos hpnt, mirrorPos_mirrorPos hp.2] at h2
        rw [h2 hp.1] at hk; cases hk
    · intro hns
      by_cases h1 : a ≤ nt / 2 → keep a b = true
      · have h2 : ¬ (mirrorPos nt a ≤ nt / 2 → keep (mirrorPos nt a) (mirrorPos nl b) = true) := fun h => hns ⟨h1, h⟩
        rw [Classical.not_imp, Bool.not_eq_true] at h2
        refine ⟨(mirrorPos nt a, mirrorPos nl b), (hmem _).mpr ⟨h2.1, mirrorPos_lt (by omega)⟩, h2.2, ?_⟩
        rw [mem_zeroedFrom (mirrorPos_lt (by omega)) (mirrorPos_lt (by omega)), mirrorPos_mirrorPos ha,
          mirrorPos_mirrorPos hb]
        exact .inr ⟨rfl, rfl⟩
      · rw [Classical.not_imp, Bool.not_eq_true] at h1
        exact ⟨(a, b), (hmem _).mpr ⟨h1.1, hb⟩, h1.2, (mem_zeroedFrom ha hb).mpr (.inl ⟨rfl, rfl⟩)⟩
  by_cases h : Survives keep nt nl a b
  · rw [if_pos h, if_neg (by rw [hiff]; exact not_not.mpr h)]
  · rw [if_neg h, if_pos (hiff.mpr h)]

/-- Where the two shifts put the component `i`. -/
def shiftedPos (n i : ℕ) : ℕ := (i + 2 * (n / 2)) % n

theorem shiftedPos_lt {n i : ℕ} (h : 0 < n) : shiftedPos n i < n := Nat.mod_lt _ h

theorem shiftedPos_even {n i : ℕ} (h : n % 2 = 0) (hi : i < n) : shiftedPos n i = i := by
  unfold shiftedPos
  have : 2 * (n / 2) = n := by omega
  rw [this, Nat.add_mod_right, Nat.mod_eq_of_lt hi]

theorem shiftedPos_odd {n i : ℕ} (h : n % 2 = 1) (h0 : 0 < i) (hi : i < n) : shiftedPos n i = i - 1 := by
  unfold shiftedPos
  have : i + 2 * (n / 2) = (i - 1) + n := by omega
  rw [this, Nat.add_mod_right, Nat.mod_eq_of_lt (by omega)]

theorem roll_forward (n i : ℕ) (h : 0 < n) :
    ((shiftedPos n i + (n - n / 2 % n)) % n + (n - n / 2 % n)) % n = i % n := by
  unfold shiftedPos
  have hh : n / 2 % n = n / 2 := Nat.mod_eq_of_lt (by omega)
  rw [hh]
  rw [Nat.mod_add_mod, Nat.add_assoc, Nat.mod_add_mod]
  have : i + 2 * (n / 2) + (n - n / 2 + (n - n / 2)) = i + 2 * n := by omega
  rw [this, Nat.add_mul_mod_self_right]

theorem roll_back (n i : ℕ) (h : 0 < n) :
    ((i + (n - (n - n / 2) % n)) % n + (n - (n - n / 2) % n)) % n = shiftedPos n i := by
  unfold shiftedPos
  rcases Nat.lt_or_ge 1 n with h1 | h1
  · have hh : (n - n / 2) % n = n - n / 2 := Nat.mod_eq_of_lt (by omega)
    rw [hh, Nat.mod_add_mod, Nat.add_assoc]
    have : n - (n - n / 2) + (n - (n - n / 2)) = 2 * (n / 2) := by omega
    rw [this]
  · have : n = 1 := by omega
    subst this
    simp

open Classical in
/-- What the filter does to every component, for all sizes: the test is made at the position the shifts put it. -/
theorem omiFilter_eq {α : Type} [Zero α] (nt nl : ℕ) (dt pmin pmax wmin wmax : ℚ) (S : ℕ → ℕ → α) (i j : ℕ)
    (hi : i < nt) (hj : j < nl) :
    omiFilter nt nl dt pmin pmax wmin wmax S i j =
      if Survives (fun i j => insideBand (1 / pmax) (1 / pmin) wmin wmax (freqAxis nt (1 / dt) i) (wnAxis nl j))
        nt nl (shiftedPos nt i) (shiftedPos nl j) then S i j else 0 := by
  have h0 : 0 < nt := by omega
  have h0' : 0 < nl := by omega
  unfold omiFilter
  have hb : ∀ F : ℕ → ℕ → α, roll2 nt nl (nt - nt / 2) (nl - nl / 2) (roll2 nt nl (nt - nt / 2) (nl - nl / 2) F) i j =
      F (shiftedPos nt i) (shiftedPos nl j) := by
    intro F
    unfold roll2 rollFn
    simp only [roll_back nt i h0, roll_back nl j h0']
  rw [hb, loops_eq _ _ _ _ _ _ (shiftedPos_lt h0) (shiftedPos_lt h0')]
  have hf : roll2 nt nl (nt / 2) (nl / 2) (roll2 nt nl (nt / 2) (nl / 2) S) (shiftedPos nt i) (shiftedPos nl j) = S i j := by
    unfold roll2 rollFn
    simp only [roll_forward nt i h0, roll_forward nl j h0', Nat.mod_eq_of_lt hi, Nat.mod_eq_of_lt hj]
  rw [hf]

theorem insideBand_iff (fmin fmax K ff ss : ℚ) (hf : fmin < fmax) (hK : 0 < K) :
    insideBand fmin fmax (-K) K ff ss = true ↔ (fmin ≤ ff ∧ ff ≤ fmax) ∧ (-K ≤ ss ∧ ss ≤ K) := by
  unfold insideBand
  have h1 : (ss * (fmin - fmin) + fmin * -K - fmin * K) / (-K - K) = fmin := by
    rw [div_eq_iff (by linarith)]; ring
  have h2 : (ss * (fmax - fmax) + fmax * -K - fmax * K) / (-K - K) = fmax := by
    rw [div_eq_iff (by linarith)]; ring
  have h3 : (ff * (-K - -K) - fmin * -K + fmax * -K) / (fmax - fmin) = -K := by
    rw [div_eq_iff (by linarith)]; ring
  have h4 : (ff * (K - K) - fmin * K + fmax * K) / (fmax - fmin) = K := by
    rw [div_eq_iff (by linarith)]; ring
  rw [h1, h2, h3, h4]
  simp only [Bool.and_eq_true, decide_eq_true_eq, ge_iff_le, and_assoc]

/-- A component with `c` cycles in a record of `T` days has a period between `pmin` and `pmax` days. -/
def PeriodInBand (T pmin pmax : ℚ) (c : ℕ) : Prop := T ≤ pmax * c ∧ pmin * c ≤ T

theorem freq_in_band (nt : ℕ) (dt pmin pmax : ℚ) (hdt : 0 < dt) (hp : 0 < pmin) (hpp : pmin < pmax) (a : ℕ) (hnt : 0 < nt)
    (ha : a ≤ nt / 2) :
    (1 / pmax ≤ freqAxis nt (1 / dt) a ∧ freqAxis nt (1 / dt) a ≤ 1 / pmin) ↔ PeriodInBand (nt * dt) pmin pmax a := by
  have hle : (a : ℚ) ≤ (nt : ℚ) / 2 := by
    rw [le_div_iff₀ (by norm_num)]
    exact_mod_cast (by omega : a * 2 ≤ nt)
  unfold freqAxis PeriodInBand
  rw [if_pos hle]
  have hn : (0 : ℚ) < nt := by exact_mod_cast hnt
  have hpm : 0 < pmax := by linarith
  have e : (a : ℚ) * (1 / dt) / nt = a / (nt * dt) := by field_simp
  rw [e, div_le_div_iff₀ hpm (by positivity), div_le_div_iff₀ (by positivity) hp]
  constructor <;> rintro ⟨h1, h2⟩ <;> constructor <;> linarith

theorem wn_in_band (nl : ℕ) (K : ℚ) (b : ℕ) (hb : b < nl) :
    (-K ≤ wnAxis nl b ∧ wnAxis nl b ≤ K) ↔ ((min b (nl - b) : ℕ) : ℚ) ≤ K := by
  unfold wnAxis
  have hcond : ((b : ℚ) ≤ (nl : ℚ) / 2) ↔ b * 2 ≤ nl := by
    rw [le_div_iff₀ (by norm_num)]
    exact_mod_cast Iff.rfl
  have hb0 : (0 : ℚ) ≤ b := Nat.cast_nonneg b
  split
  · rename_i h
    rw [hcond] at h
    rw [min_eq_left (by omega)]
    constructor
    · rintro ⟨h1, h2⟩; linarith
    · intro h1; constructor <;> linarith
  · rename_i h
    rw [hcond] at h
    rw [min_eq_right (by omega), Nat.cast_sub (by omega)]
    have : (b : ℚ) ≤ nl := by exact_mod_cast hb.le
    constructor
    · rintro ⟨h1, h2⟩; linarith
    · intro h1; constructor <;> linarith

theorem min_mirror (n b : ℕ) (hb : b < n) : min (mirrorPos n b) (n - mirrorPos n b) = min b (n - b) := by
  rcases Nat.eq_zero_or_pos b with rfl | h0
  · rw [mirrorPos_zero]
  · rw [mirrorPos_of_pos h0 hb]
    omega

theorem keep_iff (nt nl : ℕ) (dt pmin pmax K : ℚ) (hdt : 0 < dt) (hp : 0 < pmin) (hpp : pmin < pmax) (hK : 0 < K) (a b : ℕ)
    (hnt : 0 < nt) (ha : a ≤ nt / 2) (hb : b < nl) :
    insideBand (1 / pmax) (1 / pmin) (-K) K (freqAxis nt (1 / dt) a) (wnAxis nl b) = true ↔
      PeriodInBand (nt * dt) pmin pmax a ∧ ((min b (nl - b) : ℕ) : ℚ) ≤ K := by
  have : 1 / pmax < 1 / pmin := one_div_lt_one_div_of_lt hp hpp
  rw [insideBand_iff _ _ _ _ _ this hK, freq_in_band nt dt pmin pmax hdt hp hpp a hnt ha, wn_in_band nl K b hb]

open Classical in
/-- C143, proved for even numbers of times and longitudes: the component of frequency index `i` and wavenumber index `j` is kept
as it is when its period is between `pmin` and `pmax` days and its wavenumber at most `K`, and is removed otherwise. `min i
(nt - i)` is the number of cycles in the record of `nt * dt` days; components `i` and `nt - i` are treated alike, so that a real
field stays real. -/
theorem C143_even_partial {α : Type} [Zero α] (nt nl : ℕ) (dt pmin pmax K : ℚ) (S : ℕ → ℕ → α) (hdt : 0 < dt)
    (hp : 0 < pmin) (hpp : pmin < pmax) (hK : 0 < K) (het : nt % 2 = 0) (hel : nl % 2 = 0) (i j : ℕ) (hi : i < nt)
    (hj : j < nl) :
    omiFilter nt nl dt pmin pmax (-K) K S i j =
      if PeriodInBand (nt * dt) pmin pmax (min i (nt - i)) ∧ ((min j (nl - j) : ℕ) : ℚ) ≤ K then S i j else 0 := by
  rw [omiFilter_eq nt nl dt pmin pmax (-K) K S i j hi hj, shiftedPos_even het hi, shiftedPos_even hel hj]
  have h0 : 0 < nt := by omega
  have h0' : 0 < nl := by omega
  have hS : Survives (fun i j => insideBand (1 / pmax) (1 / pmin) (-K) K (freqAxis nt (1 / dt) i) (wnAxis nl j)) nt nl i j ↔
      PeriodInBand (nt * dt) pmin pmax (min i (nt - i)) ∧ ((min j (nl - j) : ℕ) : ℚ) ≤ K := by
    unfold Survives
    have hmj := mirrorPos_lt (n := nl) (i := j) h0'
    by_cases h : i ≤ nt / 2
    · have hmin : min i (nt - i) = i := by omega
      rw [hmin, ← keep_iff nt nl dt pmin pmax K hdt hp hpp hK i j h0 h hj]
      constructor
      · exact fun hh => hh.1 h
      · intro hk
        refine ⟨fun _ => hk, fun hm => ?_⟩
        have hme : mirrorPos nt i = i := by
          rcases Nat.eq_zero_or_pos i with rfl | h1
          · exact mirrorPos_zero nt
          · rw [mirrorPos_of_pos h1 hi] at hm ⊢; omega
        rw [hme, keep_iff nt nl dt pmin pmax K hdt hp hpp hK i _ h0 h hmj, min_mirror nl j hj]
        exact (keep_iff nt nl dt pmin pmax K hdt hp hpp hK i j h0 h hj).mp hk
    · have hmin : min i (nt - i) = nt - i := by omega
      have hme : mirrorPos nt i = nt - i := mirrorPos_of_pos (by omega) hi
      have hk := keep_iff nt nl dt pmin pmax K hdt hp hpp hK (nt - i) (mirrorPos nl j) h0 (by omega) hmj
      rw [min_mirror nl j hj] at hk
      rw [hmin, ← hk, hme]
      exact ⟨fun hh => hh.2 (by omega), fun hh => ⟨fun h' => absurd h' h, fun _ => hh⟩⟩
  by_cases h : PeriodInBand (nt * dt) pmin pmax (min i (nt - i)) ∧ ((min j (nl - j) : ℕ) : ℚ) ≤ K
  · rw [if_pos h, if_pos (hS.mpr h)]
  · rw [if_neg h, if_neg (fun hh => h (hS.mp hh))]

open Classical in
/-- C143 for an odd number of times: a component with `i` cycles is judged as if it had `i - 1`, its conjugate as if it had
`i + 1`. -/
theorem C143_odd {α : Type} [Zero α] (h nl : ℕ) (dt pmin pmax K : ℚ) (S : ℕ → ℕ → α) (hdt : 0 < dt)
    (hp : 0 < pmin) (hpp : pmin < pmax) (hK : 0 < K) (hel : nl % 2 = 0) (i j : ℕ) (h1 : 2 ≤ i) (hi : i < h) (hj : j < nl) :
    omiFilter (2 * h + 1) nl dt pmin pmax (-K) K S i j =
        (if PeriodInBand ((2 * h + 1 : ℕ) * dt) pmin pmax (i - 1) ∧ ((min j (nl - j) : ℕ) : ℚ) ≤ K then S i j else 0) ∧
      omiFilter (2 * h + 1) nl dt pmin pmax (-K) K S (2 * h + 1 - i) j =
        if PeriodInBand ((2 * h + 1 : ℕ) * dt) pmin pmax (i + 1) ∧ ((min j (nl - j) : ℕ) : ℚ) ≤ K
          then S (2 * h + 1 - i) j else 0 := by
  have h0 : 0 < 2 * h + 1 := by omega
  have h0' : 0 < nl := by omega
  have hmj := mirrorPos_lt (n := nl) (i := j) h0'
  constructor
  · rw [omiFilter_eq _ nl dt pmin pmax (-K) K S i j (by omega) hj, shiftedPos_odd (by omega) (by omega) (by omega),
      shiftedPos_even hel hj]
    have hme : mirrorPos (2 * h + 1) (i - 1) = 2 * h + 1 - (i - 1) := mirrorPos_of_pos (by omega) (by omega)
    have hS : Survives (fun a b => insideBand (1 / pmax) (1 / pmin) (-K) K (freqAxis (2 * h + 1) (1 / dt) a) (wnAxis nl b))
        (2 * h + 1) nl (i - 1) j ↔
        PeriodInBand ((2 * h + 1 : ℕ) * dt) pmin pmax (i - 1) ∧ ((min j (nl - j) : ℕ) : ℚ) ≤ K := by
      unfold Survives
      rw [hme, ← keep_iff (2 * h + 1) nl dt pmin pmax K hdt hp hpp hK (i - 1) j h0 (by omega) hj]
      exact ⟨fun hh => hh.1 (by omega), fun hh => ⟨fun _ => hh, fun hc => by omega⟩⟩
    by_cases hc : PeriodInBand ((2 * h + 1 : ℕ) * dt) pmin pmax (i - 1) ∧ ((min j (nl - j) : ℕ) : ℚ) ≤ K
    · rw [if_pos hc, if_pos (hS.mpr hc)]
    · rw [if_neg hc, if_neg (fun hh => hc (hS.mp hh))]
  · rw [omiFilter_eq _ nl dt pmin pmax (-K) K S _ j (by omega) hj, shiftedPos_odd (by omega) (by omega) (by omega),
      shiftedPos_even hel hj]
    have hme : mirrorPos (2 * h + 1) (2 * h + 1 - i - 1) = i + 1 := by rw [mirrorPos_of_pos (by omega) (by omega)]; omega
    have hk := keep_iff (2 * h + 1) nl dt pmin pmax K hdt hp hpp hK (i + 1) (mirrorPos nl j) h0 (by omega) hmj
    rw [min_mirror nl j hj] at hk
    have hS : Survives (fun a b => insideBand (1 / pmax) (1 / pmin) (-K) K (freqAxis (2 * h + 1) (1 / dt) a) (wnAxis nl b))
        (2 * h + 1) nl (2 * h + 1 - i - 1) j ↔
        PeriodInBand ((2 * h + 1 : ℕ) * dt) pmin pmax (i + 1) ∧ ((min j (nl - j) : ℕ) : ℚ) ≤ K := by
      unfold Survives
      rw [hme, ← hk]
      constructor
      · exact fun hh => hh.2 (by omega)
      · intro hh
        refine ⟨fun hc => ?_, fun _ => hh⟩
        omega
    by_cases hc : PeriodInBand ((2 * h + 1 : ℕ) * dt) pmin pmax (i + 1) ∧ ((min j (nl - j) : ℕ) : ℚ) ≤ K
    · rw [if_pos hc, if_pos (hS.mpr hc)]
    · rw [if_neg hc, if_neg (fun hh => hc (hS.mp hh))]

/-- C143 is false: a record of 1461 days is filled up to 2461. Its component with 124 cycles has a period of 19.8 days and
must go, but is kept; the conjugate component is removed. -/
theorem C143_odd_counterexample :
    ¬ PeriodInBand (2461 * 1) 20 96 124 ∧
      (∀ S : ℕ → ℕ → ℚ, omiFilter 2461 144 1 20 96 (-720) 720 S 124 3 = S 124 3) ∧
      ∀ S : ℕ → ℕ → ℚ, omiFilter 2461 144 1 20 96 (-720) 720 S (2461 - 124) 3 = 0 := by
  have key := fun S : ℕ → ℕ → ℚ => C143_odd 1230 144 1 20 96 720 S (by norm_num) (by norm_num) (by norm_num) (by norm_num)
    (by norm_num) 124 3 (by norm_num) (by norm_num) (by norm_num)
  refine ⟨by unfold PeriodInBand; norm_num, fun S => ?_, fun S => ?_⟩
  · have := (key S).1
    rw [if_pos (by unfold PeriodInBand; norm_num)] at this
    exact this
  · have := (key S).2
    rw [if_neg (by unfold PeriodInBand; norm_num)] at this
    exact this

/-- A record of 1460 days: the component with 100 cycles (24.6 days) stays, the one with 124 cycles goes. -/
example (S : ℕ → ℕ → ℚ) : omiFilter 2460 144 1 20 96 (-720) 720 S 100 3 = S 100 3 ∧
    omiFilter 2460 144 1 20 96 (-720) 720 S 124 3 = 0 := by
  constructor
  · rw [C143_even_partial 2460 144 1 20 96 720 S (by norm_num) (by norm_num) (by norm_num) (by norm_num) (by norm_num)
      (by norm_num) 100 3 (by norm_num) (by norm_num), if_pos (by unfold PeriodInBand; norm_num)]
  · rw [C143_even_partial 2460 144 1 20 96 720 S (by norm_num) (by norm_num) (by norm_num) (by norm_num) (by norm_num)
      (by norm_num) 124 3 (by norm_num) (by norm_num), if_neg (by unfold PeriodInBand; norm_num)]

end Metcalcpy.Props
