/-
C27  Circular block bootstrap resamples are valid and made of contiguous blocks.
C28  The bootstrap performs the requested number of replicates (false for thread counts that do not divide it).
C29  Parallel bootstrap results do not depend on the completion order of the workers.
-/
import Verif.Model.Bootstrap
import Verif.Spec.Bootstrap
import Mathlib.Data.List.GetD
import Mathlib.Tactic.Linarith
import Mathlib.Tactic.Ring

namespace Metcalcpy.Props
open Metcalcpy Spec

/-! ### C27 -/

theorem cbbLoop_length (n L : ℕ) : ∀ (vs : List ℕ) (c init : ℕ), (cbbLoop n L c init vs).length = vs.length
  | [], _, _ => rfl
  | _ :: vs, _, _ => by simp [cbbLoop, cbbLoop_length n L vs]

theorem cbbLoop_get (row : List ℕ) (L : ℕ) (hL : 0 < L) (hrow : ∀ x ∈ row, x < row.length) :
    ∀ (vs : List ℕ) (k c init : ℕ), vs = row.drop k → c = k % L →
      (c ≠ 0 → init = row.getD (k / L * L) 0) → ∀ i, i < vs.length →
      (cbbLoop row.length L c init vs)[i]? = some (blockIndex row L (k + i)) := by
  intro vs
  induction vs with
  | nil => intro k c init _ _ _ i hi; simp at hi
  | cons v vs ih =>
    intro k c init hvs hc hinit i hi
    have hk : k < row.length := by
      by_contra h
      rw [List.drop_eq_nil_of_le (by omega)] at hvs
      simp at hvs
    rw [List.drop_eq_getElem_cons hk] at hvs
    simp only [List.cons.injEq] at hvs
    obtain ⟨hv, hvs⟩ := hvs
    have hget : ∀ j, j < row.length → row.getD j 0 < row.length := by
      intro j hj
      rw [List.getD_eq_getElem _ _ hj]; exact hrow _ (List.getElem_mem hj)
    have hdm := Nat.div_add_mod k L
    have hout : (if c = 0 then v else if init + c > row.length - 1 then init + c - row.length
        else init + c) = blockIndex row L k := by
      unfold blockIndex
      by_cases h0 : c = 0
      · have e : k / L * L = k := by rw [mul_comm]; omega
        rw [if_pos h0, e, ← hc, h0, Nat.add_zero, List.getD_eq_getElem _ _ hk, hv,
          Nat.mod_eq_of_lt (hrow _ (List.getElem_mem hk))]
      · rw [if_neg h0, ← hinit h0, ← hc]
        have h1 : init < row.length := by
          rw [hinit h0]
          exact hget _ (lt_of_le_of_lt (Nat.div_mul_le_self k L) hk)
        have h2 : c ≤ k := by rw [hc]; exact Nat.mod_le _ _
        by_cases h3 : init + c > row.length - 1
        · rw [if_pos h3]
          have : init + c = (init + c - row.length) + row.length := by omega
          rw [this, Nat.add_mod_right, Nat.mod_eq_of_lt (by omega)]
          omega
        · rw [if_neg h3, Nat.mod_eq_of_lt (by omega)]
    cases i with
    | zero =>
      simp only [cbbLoop, List.getElem?_cons_zero, Nat.add_zero, Option.some.injEq]
      exact hout
    | succ i =>
      simp only [cbbLoop, List.getElem?_cons_succ]
      rw [ih (k + 1) _ _ hvs ?_ ?_ i (by simpa using hi)]
      · congr 2; omega
      · by_cases h : c + 1 = L
        · rw [if_pos h]
          have : k + 1 = L * (k / L + 1) := by rw [mul_add]; omega
          rw [this, Nat.mul_mod_right]
        · rw [if_neg h]
          have h1 : c < L := by rw [hc]; exact Nat.mod_lt _ hL
          have : k + 1 = (c + 1) + L * (k / L) := by omega
          rw [this, Nat.add_mul_mod_self_left, Nat.mod_eq_of_lt (by omega)]
      · intro h
        have h' : ¬ c + 1 = L := by
          intro h'; rw [if_pos h'] at h; exact h rfl
        have h1 : c < L := by rw [hc]; exact Nat.mod_lt _ hL
        have : (k + 1) / L = k / L := by
          have : k + 1 = (c + 1) + L * (k / L) := by omega
          rw [this, Nat.add_mul_div_left _ _ hL, Nat.div_eq_of_lt (by omega : c + 1 < L), Nat.zero_add]
        rw [this]
        by_cases h0 : c = 0
        · rw [if_pos h0]
          have e : k / L * L = k := by rw [mul_comm]; omega
          rw [e, List.getD_eq_getElem _ _ hk, hv]
        · rw [if_neg h0]; exact hinit h0

/-- C27: position by position, the indices of a circular block resample are the block start points moved
on around the circle, for every sample size, block length and vector of start points. -/
theorem C27_indices (row : List ℕ) (L : ℕ) (hL : 0 < L) (hrow : ∀ x ∈ row, x < row.length) :
    (applyCbb L row).length = row.length ∧
      ∀ i, i < row.length → (applyCbb L row)[i]? = some (blockIndex row L i) := by
  refine ⟨cbbLoop_length _ _ _ _ _, fun i hi => ?_⟩
  have := cbbLoop_get row L hL hrow row 0 0 (row.headD 0) (by simp) (by simp) (by simp) i hi
  simpa [applyCbb] using this

example : applyCbb 3 [5, 1, 2, 4, 0, 3, 6] = [5, 6, 0, 4, 5, 6, 6] := by decide
example : ∀ x ∈ [5, 1, 2, 4, 0, 3, 6], x < [5, 1, 2, 4, 0, 3, 6].length := by decide

/-- C27: inside a block, consecutive draws are cyclically consecutive cases; a block starts with the drawn
start point; and every index is one of the data. -/
theorem C27_consecutive (row : List ℕ) (L : ℕ) (hL : 0 < L) (hrow : ∀ x ∈ row, x < row.length) :
    (∀ x ∈ applyCbb L row, x < row.length) ∧
    (∀ i, i < row.length → i % L = 0 → (applyCbb L row)[i]? = row[i]?) ∧
    (∀ i, i + 1 < row.length → (i + 1) % L ≠ 0 →
      ∃ a, (applyCbb L row)[i]? = some a ∧ (applyCbb L row)[i + 1]? = some ((a + 1) % row.length)) := by
  obtain ⟨hl, hg⟩ := C27_indices row L hL hrow
  refine ⟨?_, ?_, ?_⟩
  · intro x hx
    obtain ⟨i, hi, rfl⟩ := List.getElem_of_mem hx
    have h := hg i (by omega)
    rw [List.getElem?_eq_getElem hi, Option.some.injEq] at h
    rw [h]
    exact Nat.mod_lt _ (by omega)
  · intro i hi h0
    rw [hg i hi, List.getElem?_eq_getElem hi]
    have e : i / L * L = i := by have := Nat.div_add_mod i L; rw [mul_comm]; omega
    unfold blockIndex
    rw [e, h0, Nat.add_zero, List.getD_eq_getElem _ _ hi,
      Nat.mod_eq_of_lt (hrow _ (List.getElem_mem hi))]
  · intro i hi h0
    refine ⟨_, hg i (by omega), ?_⟩
    rw [hg (i + 1) hi]
    congr 1
    unfold blockIndex
    have hdm := Nat.div_add_mod i L
    have h1 : i % L < L := Nat.mod_lt _ hL
    have h2 : i % L + 1 ≠ L := by
      intro h
      apply h0
      have : i + 1 = L * (i / L + 1) := by rw [mul_add]; omega
      rw [this, Nat.mul_mod_right]
    have e : i + 1 = (i % L + 1) + L * (i / L) := by omega
    have e1 : (i + 1) / L = i / L := by
      conv_lhs => rw [e]
      rw [Nat.add_mul_div_left _ _ hL, Nat.div_eq_of_lt (by omega), Nat.zero_add]
    have e2 : (i + 1) % L = i % L + 1 := by
      conv_lhs => rw [e]
      rw [Nat.add_mul_mod_self_left, Nat.mod_eq_of_lt (by omega)]
    rw [e1, e2, Nat.mod_add_mod, Nat.add_assoc]

theorem mapM_except_ok {α β : Type} (f : α → Except PyErr β) (g : α → β) :
    ∀ (l : List α), (∀ x ∈ l, f x = .ok (g x)) → l.mapM f = .ok (l.map g)
  | [], _ => rfl
  | x :: l, h => by
    rw [List.mapM_cons, h x (by simp), mapM_except_ok f g l (fun y hy => h y (by simp [hy]))]
    rfl

theorem takeIdx_ok {α : Type} (values : List α) (row : List ℕ) (h : ∀ i ∈ row, i < values.length) :
    ∃ xs, takeIdx values row = .ok xs ∧ xs.length = row.length ∧
      ∀ i (hi : i < row.length), xs[i]? = values[row[i]]? := by
  induction row with
  | nil => exact ⟨[], rfl, rfl, by simp⟩
  | cons r row ih =>
    obtain ⟨xs, e, hl, hg⟩ := ih (fun i hi => h i (by simp [hi]))
    have hr := h r (by simp)
    refine ⟨values[r] :: xs, ?_, by simp [hl], ?_⟩
    · unfold takeIdx at e ⊢
      rw [List.mapM_cons, e]
      simp [List.getElem?_eq_getElem hr]
      rfl
    · intro i hi
      cases i with
      | zero => simp [List.getElem?_eq_getElem hr]
      | succ i => simpa using hg i (by simpa using hi)

theorem generate_ok {α : Type} (values : List α) (L k : ℕ) (ids : List (List ℕ))
    (h : IndexMatrix values.length k ids) :
    ∃ sims, generateDistributions values L ids = .ok sims ∧ sims.length = k ∧
      ∀ xs ∈ sims, IsResample values xs := by
  have key : ∀ (ids : List (List ℕ)), (∀ row ∈ ids, row.length = values.length ∧
      ∀ i ∈ row, i < values.length) → ∃ sims, ids.mapM (takeIdx values) = .ok sims ∧
      sims.length = ids.length ∧ ∀ xs ∈ sims, IsResample values xs := by
    intro ids hids
    induction ids with
    | nil => exact ⟨[], rfl, rfl, by simp⟩
    | cons r ids ih =>
      obtain ⟨sims, e, hl, hm⟩ := ih (fun row hr => hids row (by simp [hr]))
      obtain ⟨h1, h2⟩ := hids r (by simp)
      obtain ⟨xs, e', hl', hg⟩ := takeIdx_ok values r h2
      refine ⟨xs :: sims, ?_, by simp [hl], ?_⟩
      · rw [List.mapM_cons, e', e]; rfl
      · intro ys hy
        rcases List.mem_cons.mp hy with rfl | hy
        · refine ⟨by omega, fun x hx => ?_⟩
          obtain ⟨i, hi, rfl⟩ := List.getElem_of_mem hx
          have hir : i < r.length := by omega
          have := hg i hir
          have hv := h2 _ (List.getElem_mem hir)
          rw [List.getElem?_eq_getElem hi, List.getElem?_eq_getElem hv, Option.some.injEq] at this
          rw [this]; exact List.getElem_mem hv
        · exact hm ys hy
  obtain ⟨hk, hr⟩ := h
  unfold generateDistributions
  by_cases hL : L > 1
  · rw [if_pos hL]
    obtain ⟨sims, e, hl, hm⟩ := key (ids.map (applyCbb L)) (by
      intro row hrow
      obtain ⟨r, hr', rfl⟩ := List.mem_map.mp hrow
      obtain ⟨h1, h2⟩ := hr r hr'
      have h2' : ∀ x ∈ r, x < r.length := by rw [h1]; exact h2
      refine ⟨by rw [(C27_indices r L (by omega) h2').1, h1], ?_⟩
      rw [← h1]; exact (C27_consecutive r L (by omega) h2').1)
    exact ⟨sims, e, by simpa [hk] using hl, hm⟩
  · rw [if_neg hL]
    obtain ⟨sims, e, hl, hm⟩ := key ids hr
    exact ⟨sims, e, by omega, hm⟩

/-- C27: whatever `np.random.choice` draws, resampling raises nothing and returns one resample of the size
of the data, consisting of data values, per drawn row; for every block length. -/
theorem C27_resamples {α : Type} (values : List α) (L k : ℕ) (ids : List (List ℕ))
    (h : IndexMatrix values.length k ids) :
    ∃ sims, generateDistributions values L ids = .ok sims ∧ sims.length = k ∧
      ∀ xs ∈ sims, IsResample values xs := generate_ok values L k ids h

example : IndexMatrix ["a", "b", "c"].length 2 [[2, 0, 0], [1, 1, 2]] := by
  refine ⟨rfl, ?_⟩; decide
example : generateDistributions ["a", "b", "c"] 2 [[2, 0, 0], [1, 1, 2]] =
    .ok [["c", "a", "a"], ["b", "c", "c"]] := by decide

/-! ### C28 -/

/-- The generator draws index matrices of the requested shape. -/
def ValidRng {σ : Type} (G : Rng σ) : Prop := ∀ s n k, IndexMatrix n k (G.choice s n k).1

theorem simBatches_sum (n b : ℕ) (hb : b ≠ 0) : (simBatches n b).sum = n := by
  have key : ∀ m, ((List.range m).map (fun k => min b (n - k * b))).sum = min n (m * b) := by
    intro m
    induction m with
    | zero => simp
    | succ m ih =>
      rw [List.range_succ, List.map_append, List.sum_append, ih]
      simp only [List.map_cons, List.map_nil, List.sum_cons, List.sum_nil, Nat.add_zero]
      rw [Nat.add_mul, Nat.one_mul]
      omega
  unfold simBatches
  rw [key]
  have h1 := Nat.div_add_mod (n + b - 1) b
  have h2 := Nat.mod_lt (n + b - 1) (Nat.pos_of_ne_zero hb)
  rw [mul_comm] at h1
  omega

theorem simRound_ok {σ α β : Type} (G : Rng σ) (hG : ValidRng G) (values : List α) (L : ℕ)
    (f : List α → β) (s : σ) (acc : List β) (m k : ℕ) (h : Replicates values f k acc) :
    ∃ s' acc', simRound G values L (List.map f) (s, acc) m = .ok (s', acc') ∧
      Replicates values f (k + m) acc' := by
  obtain ⟨sims, e, hl, hr⟩ := generate_ok values L m _ (hG s values.length m)
  obtain ⟨sims₀, e₀, h₀, rfl⟩ := h
  refine ⟨(G.choice s values.length m).2, sims₀.map f ++ sims.map f, ?_, sims₀ ++ sims, ?_, ?_, ?_⟩
  · simp only [simRound, e]
  · simp [e₀, hl]
  · intro xs hx
    rcases List.mem_append.mp hx with hx | hx
    · exact h₀ xs hx
    · exact hr xs hx
  · simp

theorem foldlM_rounds {σ α β : Type} (G : Rng σ) (hG : ValidRng G) (values : List α) (L : ℕ)
    (f : List α → β) : ∀ (ms : List ℕ) (s : σ) (acc : List β) (k : ℕ), Replicates values f k acc →
      ∃ s' acc', ms.foldlM (simRound G values L (List.map f)) (s, acc) = .ok (s', acc') ∧
        Replicates values f (k + ms.sum) acc'
  | [], s, acc, k, h => ⟨s, acc, rfl, by simpa using h⟩
  | m :: ms, s, acc, k, h => by
    obtain ⟨s', acc', e, h'⟩ := simRound_ok G hG values L f s acc m k h
    obtain ⟨s'', acc'', e', h''⟩ := foldlM_rounds G hG values L f ms s' acc' _ h'
    refine ⟨s'', acc'', ?_, ?_⟩
    · rw [List.foldlM_cons, e]; exact e'
    · rw [List.sum_cons, ← Nat.add_assoc]; exact h''

theorem bootstrapSim_ok {σ α β : Type} (G : Rng σ) (hG : ValidRng G) (values : List α) (L : ℕ)
    (f : List α → β) (n b : ℕ) (hb : b ≠ 0) (s : σ) :
    ∃ rs, bootstrapSim G values L (List.map f) n b s = .ok rs ∧ Replicates values f n rs := by
  obtain ⟨s', acc, e, h⟩ := foldlM_rounds G hG values L f (simBatches n b) s [] 0
    ⟨[], rfl, by simp, rfl⟩
  refine ⟨acc, ?_, ?_⟩
  · rw [bootstrapSim, if_neg hb, e]; rfl
  · rwa [simBatches_sum n b hb, Nat.zero_add] at h

/-- C28: the serial bootstrap evaluates the statistic on exactly the requested number of resamples, for any
batch size, block length and random generator, and raises nothing. -/
theorem C28_serial {σ α β : Type} (G : Rng σ) (hG : ValidRng G) (values : List α) (L : ℕ)
    (f : List α → β) (n : ℕ) (batch : Option ℕ) (hb : batch.getD n ≠ 0) (threads : ℤ) (cpu : ℕ)
    (ht : (if threads = -1 then (cpu : ℤ) else threads) ≤ 1) (s : σ) (seeds : ℕ → List ℕ)
    (states : List σ) (schedule : List PoolEvent) :
    ∃ rs, bootstrapDistribution G values L (List.map f) n batch threads cpu s seeds states schedule =
      some (.ok rs) ∧ Replicates values f n rs := by
  obtain ⟨rs, e, h⟩ := bootstrapSim_ok G hG values L f n (batch.getD n) hb s
  refine ⟨rs, ?_, h⟩
  simp only [bootstrapDistribution]
  rw [if_pos ht, e]

/-- A generator that counts: a valid one. -/
def countRng : Rng ℕ where
  seed := id
  choice s n k := ((List.range k).map (fun i => (List.range n).map (fun j => (s + i * j) % n)), s + k)

theorem countRng_valid : ValidRng countRng := by
  intro s n k
  refine ⟨by simp [countRng], ?_⟩
  intro row hrow
  simp only [countRng, List.mem_map, List.mem_range] at hrow
  obtain ⟨i, hi, rfl⟩ := hrow
  refine ⟨by simp, ?_⟩
  intro x hx
  simp only [List.mem_map, List.mem_range] at hx
  obtain ⟨j, hj, rfl⟩ := hx
  exact Nat.mod_lt _ (by omega)

/-- Five replicates in batches of two. -/
example : bootstrapDistribution countRng [10, 20, 40] 2 (List.map List.sum) 5 (some 2) 1 4 0
    (fun k => List.range k) [] [] = some (.ok [40, 70, 90, 70, 80]) := by decide

/-! ### C29 -/

section pool
variable {σ α β : Type} (G : Rng σ) (values : List α) (L : ℕ) (stat : List (List α) → List β)
  (n b : ℕ) (seeds : List ℕ)

/-- Outcome of job `j` when it runs alone. -/
def jobAlone (j : ℕ) : Except PyErr (List β) :=
  ((simBatches n b).foldlM (simRound G values L stat) (G.seed (seeds.getD j 0), [])).map Prod.snd

/-- Whatever the schedule did so far: a busy worker is in the state the job running alone would have after
the rounds done, and every delivered result is that of the job running alone. -/
structure PoolInv (p : Pool σ β) : Prop where
  slots_len : p.slots.length = seeds.length
  busy : ∀ (w : ℕ) (r : σ) (j : ℕ) (rem : List ℕ) (acc : List β), p.workers[w]? = some ⟨r, some (j, rem, acc)⟩ →
    ∃ done, simBatches n b = done ++ rem ∧
      done.foldlM (simRound G values L stat) (G.seed (seeds.getD j 0), []) = .ok (r, acc)
  ready : ∀ (j : ℕ) r, p.slots[j]? = some (some r) → r = jobAlone G values L stat n b seeds j

theorem poolInit_inv (states : List σ) : PoolInv G values L stat n b seeds (poolInit states seeds) where
  slots_len := by simp [poolInit]
  busy := by
    intro w r j rem acc h
    simp only [poolInit, List.getElem?_map, Option.map_eq_some_iff] at h
    obtain ⟨s, -, h⟩ := h
    cases h
  ready := by
    intro j r h
    simp only [poolInit, List.getElem?_map, Option.map_eq_some_iff] at h
    obtain ⟨s, -, h⟩ := h
    cases h

theorem getElem?_set_cases {γ : Type} {l : List γ} {i j : ℕ} {x y : γ} (h : (l.set i x)[j]? = some y) :
    (i = j ∧ y = x) ∨ l[j]? = some y := by
  rw [List.getElem?_set] at h
  split_ifs at h with h1 h2
  · exact Or.inl ⟨h1, (Option.some.inj h).symm⟩
  · exact Or.inr h

theorem poolStep_inv (p : Pool σ β) (e : PoolEvent) (h : PoolInv G values L stat n b seeds p) :
    PoolInv G values L stat n b seeds (poolStep G values L stat n b seeds p e) := by
  cases e with
  | take w =>
    simp only [poolStep]
    split
    · rename_i wk j q hw hq
      split_ifs with hb
      · exact h
      · refine ⟨h.slots_len, ?_, h.ready⟩
        intro w' r j' rem acc hw'
        rcases getElem?_set_cases hw' with ⟨-, e⟩ | e
        · cases e
          exact ⟨[], rfl, rfl⟩
        · exact h.busy w' r j' rem acc e
    · exact h
  | step w =>
    simp only [poolStep]
    split
    · rename_i r j m ms acc hw
      obtain ⟨done, hd, hf⟩ := h.busy w r j _ acc hw
      split
      · rename_i r' acc' hr
        refine ⟨h.slots_len, ?_, h.ready⟩
        intro w' r'' j' rem acc'' hw'
        rcases getElem?_set_cases hw' with ⟨-, e⟩ | e
        · cases e
          refine ⟨done ++ [m], by simpa using hd, ?_⟩
          rw [List.foldlM_append, hf]
          simp only [bind, Except.bind, List.foldlM_cons, List.foldlM_nil, hr]
          rfl
        · exact h.busy w' r'' j' rem acc'' e
      · rename_i e hr
        refine ⟨by simpa using h.slots_len, ?_, ?_⟩
        · intro w' r'' j' rem acc'' hw'
          rcases getElem?_set_cases hw' with ⟨-, e⟩ | e
          · cases e
          · exact h.busy w' r'' j' rem acc'' e
        · intro j' r'' hs
          rcases getElem?_set_cases hs with ⟨rfl, e'⟩ | e'
          · rw [Option.some.inj e', jobAlone, hd, List.foldlM_append, hf]
            simp only [bind, Except.bind, List.foldlM_cons, hr]
            rfl
          · exact h.ready j' r'' e'
    · rename_i r j acc hw
      obtain ⟨done, hd, hf⟩ := h.busy w r j _ acc hw
      refine ⟨by simpa using h.slots_len, ?_, ?_⟩
      · intro w' r'' j' rem acc'' hw'
        rcases getElem?_set_cases hw' with ⟨-, e⟩ | e
        · cases e
        · exact h.busy w' r'' j' rem acc'' e
      · intro j' r'' hs
        rcases getElem?_set_cases hs with ⟨rfl, e'⟩ | e'
        · rw [Option.some.inj e', jobAlone, hd, List.append_nil, hf]
          rfl
        · exact h.ready j' r'' e'
    · exact h

theorem pool_inv (states : List σ) (schedule : List PoolEvent) :
    PoolInv G values L stat n b seeds
      (schedule.foldl (poolStep G values L stat n b seeds) (poolInit states seeds)) := by
  have : ∀ (sch : List PoolEvent) (p : Pool σ β), PoolInv G values L stat n b seeds p →
      PoolInv G values L stat n b seeds (sch.foldl (poolStep G values L stat n b seeds) p) := by
    intro sch
    induction sch with
    | nil => intro p h; exact h
    | cons e sch ih => intro p h; exact ih _ (poolStep_inv G values L stat n b seeds p e h)
  exact this schedule _ (poolInit_inv G values L stat n b seeds states)

end pool

/-- Results in submission order, joined; the first failing job's exception if one fails. -/
def joined {β : Type} (rs : List (Except PyErr (List β))) : Except PyErr (List β) :=
  (rs.mapM id).map List.flatten

theorem gather_eq {β : Type} : ∀ (slots : List (Option (Except PyErr (List β))))
    (rs : List (Except PyErr (List β))) (r : Except PyErr (List β)), slots.length = rs.length →
    (∀ (j : ℕ) x, slots[j]? = some (some x) → rs[j]? = some x) → gather slots = some r → r = joined rs
  | [], rs, r, hl, _, h => by
    obtain rfl : rs = [] := List.eq_nil_of_length_eq_zero hl.symm
    simp only [gather, Option.some.injEq] at h
    rw [← h]; rfl
  | sl :: slots, rs, r, hl, hr, h => by
    cases rs with
    | nil => simp at hl
    | cons x rs =>
      cases sl with
      | none => simp [gather] at h
      | some y =>
        have hxy : x = y := by
          have := hr 0 y rfl
          simpa using this
        subst hxy
        have ih := fun r' => gather_eq slots rs r' (by simpa using hl)
          (fun j z hz => by simpa using hr (j + 1) z (by simpa using hz))
        cases x with
        | error e =>
          simp only [gather, Option.some.injEq] at h
          rw [← h]; rfl
        | ok x =>
          simp only [gather, Option.map_eq_some_iff] at h
          obtain ⟨r', h1, h2⟩ := h
          have h3 := ih r' h1
          rw [← h2, h3, joined, joined, List.mapM_cons]
          cases hm : rs.mapM id with
          | error e => rfl
          | ok l => rfl

/-- C29: for every number of workers, every state their generators happen to be in and every schedule, once
the parallel bootstrap has a result it is the concatenation, in submission order, of the results of the jobs
run one after the other, each from its own seed (or the exception of the first failing one). -/
theorem C29_schedule_independent {σ α β : Type} (G : Rng σ) (values : List α) (L : ℕ)
    (stat : List (List α) → List β) (n : ℕ) (batch : Option ℕ) (hb : batch.getD n ≠ 0) (threads : ℤ)
    (ht : 1 < threads) (cpu : ℕ) (s : σ) (seeds : ℕ → List ℕ) (states : List σ)
    (schedule : List PoolEvent) (r : Except PyErr (List β))
    (h : bootstrapDistribution G values L stat n batch threads cpu s seeds states schedule = some r) :
    r = joined ((seeds threads.toNat).map fun sd =>
      bootstrapSim G values L stat (iterPerJob n threads.toNat) (batch.getD n) (G.seed sd)) := by
  have h1 : threads ≠ -1 := by omega
  simp only [bootstrapDistribution, if_neg h1, if_neg hb, not_le.mpr ht, if_false] at h
  have inv := pool_inv G values L stat (iterPerJob n threads.toNat) (batch.getD n)
    (seeds threads.toNat) states schedule
  refine gather_eq _ _ r (by simpa using inv.slots_len) ?_ h
  intro j x hx
  have hj := inv.ready j x hx
  have hlt : j < (seeds threads.toNat).length := by
    rw [← inv.slots_len]; exact (List.getElem?_eq_some_iff.mp hx).1
  rw [List.getElem?_map, List.getElem?_eq_getElem hlt, hj, jobAlone, Option.map_some,
    bootstrapSim, if_neg hb, List.getD_eq_getElem _ _ hlt]

/-- Two schedules of two workers: the results are the same. -/
def twoWorkers (sch : List PoolEvent) : Option (Except PyErr (List ℕ)) :=
  bootstrapDistribution countRng [10, 20, 40] 2 (List.map List.sum) 4 none 2 4 0
    (fun k => List.range k) [7, 8] sch

example : twoWorkers [.take 0, .take 1, .step 0, .step 1, .step 0, .step 1] = some (.ok [40, 70, 80, 70]) ∧
    twoWorkers [.take 1, .take 0, .step 0, .step 0, .step 1, .step 1] = some (.ok [40, 70, 80, 70]) ∧
    twoWorkers [.take 1, .step 1, .step 1, .take 1, .step 1] = none := by decide

/-! Some schedule finishes, with any positive number of workers. -/

section finish
variable {σ α β : Type} (G : Rng σ) (values : List α) (L : ℕ) (stat : List (List α) → List β)
  (n b : ℕ) (seeds : List ℕ)

theorem steps_finish (ws : List (Worker σ β)) : ∀ (rem : List ℕ) (r : σ) (acc : List β) (j : ℕ)
    (q : List ℕ) (slots : List (Option (Except PyErr (List β)))),
    ∃ r' x, (List.replicate (rem.length + 1) (PoolEvent.step 0)).foldl
      (poolStep G values L stat n b seeds) ⟨q, ⟨r, some (j, rem, acc)⟩ :: ws, slots⟩ =
      ⟨q, ⟨r', none⟩ :: ws, slots.set j (some x)⟩
  | [], r, acc, j, q, slots => ⟨r, .ok acc, by simp [poolStep]⟩
  | m :: rem, r, acc, j, q, slots => by
    rw [List.length_cons, List.replicate_succ, List.foldl_cons]
    simp only [poolStep, List.getElem?_cons_zero]
    cases hr : simRound G values L stat (r, acc) m with
    | ok x =>
      obtain ⟨r', acc'⟩ := x
      simp only [List.set_cons_zero]
      exact steps_finish ws rem r' acc' j q slots
    | error e =>
      simp only [List.set_cons_zero]
      refine ⟨r, .error e, ?_⟩
      generalize rem.length + 1 = k
      induction k with
      | zero => rfl
      | succ k ih =>
        rw [List.replicate_succ, List.foldl_cons]
        simpa [poolStep] using ih

theorem queue_finish (ws : List (Worker σ β)) : ∀ (q : List ℕ) (r : σ)
    (slots : List (Option (Except PyErr (List β)))),
    (∀ j, j < slots.length → j ∈ q ∨ ∃ x, slots[j]? = some (some x)) →
    ∃ sch : List PoolEvent, ∀ j, j < slots.length → ∃ x, ((sch.foldl (poolStep G values L stat n b seeds)
      ⟨q, ⟨r, none⟩ :: ws, slots⟩).slots)[j]? = some (some x)
  | [], r, slots, h => ⟨[], fun j hj => (h j hj).resolve_left (by simp)⟩
  | j₀ :: q, r, slots, h => by
    obtain ⟨r', x, e⟩ := steps_finish G values L stat n b seeds ws (simBatches n b)
      (G.seed (seeds.getD j₀ 0)) [] j₀ q slots
    obtain ⟨sch, hs⟩ := queue_finish ws q r' (slots.set j₀ (some x)) (by
      intro j hj
      rw [List.length_set] at hj
      by_cases hjj : j₀ = j
      · subst hjj
        exact Or.inr ⟨x, by simp [hj]⟩
      · rcases h j hj with h | ⟨y, hy⟩
        · rcases List.mem_cons.mp h with h | h
          · exact absurd h.symm hjj
          · exact Or.inl h
        · exact Or.inr ⟨y, by rw [List.getElem?_set_ne hjj]; exact hy⟩)
    refine ⟨.take 0 :: (List.replicate ((simBatches n b).length + 1) (.step 0) ++ sch), ?_⟩
    intro j hj
    rw [List.foldl_cons, List.foldl_append]
    have e0 : poolStep G values L stat n b seeds ⟨j₀ :: q, ⟨r, none⟩ :: ws, slots⟩ (.take 0) =
        ⟨q, ⟨G.seed (seeds.getD j₀ 0), some (j₀, simBatches n b, [])⟩ :: ws, slots⟩ := by
      simp [poolStep]
    rw [e0, e]
    exact hs j (by simpa using hj)

theorem gather_isSome {β : Type} : ∀ (slots : List (Option (Except PyErr (List β)))),
    (∀ j, j < slots.length → ∃ x, slots[j]? = some (some x)) → ∃ r, gather slots = some r
  | [], _ => ⟨_, rfl⟩
  | sl :: slots, h => by
    obtain ⟨x, hx⟩ := h 0 (by simp)
    obtain ⟨r, hr⟩ := gather_isSome slots (fun j hj => by
      simpa using h (j + 1) (by simpa using hj))
    simp only [List.getElem?_cons_zero, Option.some.injEq] at hx
    subst hx
    cases x with
    | ok x => exact ⟨_, by simp only [gather, hr]; rfl⟩
    | error e => exact ⟨_, rfl⟩

end finish

/-- C29: with at least one worker some schedule delivers a result, so the previous theorem is about
something. -/
theorem C29_can_finish {σ α β : Type} (G : Rng σ) (values : List α) (L : ℕ)
    (stat : List (List α) → List β) (n : ℕ) (batch : Option ℕ) (threads : ℤ)
    (ht : 1 < threads) (cpu : ℕ) (s : σ) (seeds : ℕ → List ℕ) (w : σ) (states : List σ) :
    ∃ schedule r, bootstrapDistribution G values L stat n batch threads cpu s seeds (w :: states) schedule =
      some r := by
  have h1 : threads ≠ -1 := by omega
  simp only [bootstrapDistribution, if_neg h1, not_le.mpr ht, if_false]
  by_cases hb : batch.getD n = 0
  · exact ⟨[], _, by rw [if_pos hb]⟩
  · simp only [if_neg hb]
    generalize seeds threads.toNat = sd
    obtain ⟨sch, hs⟩ := queue_finish G values L stat (iterPerJob n threads.toNat) (batch.getD n) sd
      (states.map fun s => ⟨s, none⟩) (List.range sd.length) w (sd.map fun _ => none) (by
        intro j hj; left; simpa using hj)
    have inv := pool_inv G values L stat (iterPerJob n threads.toNat) (batch.getD n) sd (w :: states) sch
    obtain ⟨r, hr⟩ := gather_isSome (sch.foldl
      (poolStep G values L stat (iterPerJob n threads.toNat) (batch.getD n) sd)
      (poolInit (w :: states) sd)).slots (by
        intro j hj
        rw [inv.slots_len] at hj
        exact hs j (by simpa using hj))
    exact ⟨sch, r, hr⟩

/-! ### C28, threads -/

theorem joined_ok {α β : Type} (data : List α) (f : List α → β) (m : ℕ)
    (rs : List (Except PyErr (List β)))
    (h : ∀ x ∈ rs, ∃ l, x = .ok l ∧ Replicates data f m l) :
    ∃ l, joined rs = .ok l ∧ Replicates data f (rs.length * m) l := by
  induction rs with
  | nil => exact ⟨[], rfl, [], by simp, by simp, rfl⟩
  | cons x rs ih =>
    obtain ⟨l, hl, sims, e1, e2, e3⟩ := ih (fun y hy => h y (by simp [hy]))
    obtain ⟨l', rfl, sims', e1', e2', e3'⟩ := h x (by simp)
    refine ⟨l' ++ l, ?_, sims' ++ sims, ?_, ?_, ?_⟩
    · unfold joined at hl ⊢
      rw [List.mapM_cons]
      cases hm : rs.mapM id with
      | error e => rw [hm] at hl; cases hl
      | ok ls =>
        rw [hm] at hl
        have hl' : ls.flatten = l := by cases hl; rfl
        rw [← hl']; rfl
    · rw [List.length_append, e1, e1', List.length_cons, Nat.add_mul, Nat.one_mul, Nat.add_comm]
    · intro xs hx
      rcases List.mem_append.mp hx with hx | hx
      · exact e2' xs hx
      · exact e2 xs hx
    · rw [e3, e3', List.map_append]

/-- C28 for several threads: what is evaluated: every job does `ceil(num_iterations / num_threads)`
replicates. -/
theorem C28_threads_actual {σ α β : Type} (G : Rng σ) (hG : ValidRng G) (values : List α) (L : ℕ)
    (f : List α → β) (n : ℕ) (batch : Option ℕ) (hb : batch.getD n ≠ 0) (threads : ℕ) (ht : 1 < threads)
    (cpu : ℕ) (s : σ) (seeds : ℕ → List ℕ) (hs : ∀ k, (seeds k).length = k) (states : List σ)
    (schedule : List PoolEvent) (r : Except PyErr (List β))
    (h : bootstrapDistribution G values L (List.map f) n batch threads cpu s seeds states schedule =
      some r) :
    ∃ rs, r = .ok rs ∧ Replicates values f (threads * iterPerJob n threads) rs := by
  have := C29_schedule_independent G values L (List.map f) n batch hb threads (by exact_mod_cast ht) cpu s
    seeds states schedule r h
  rw [Int.toNat_natCast] at this
  obtain ⟨l, h1, h2⟩ := joined_ok values f (iterPerJob n threads) ((seeds threads).map fun sd =>
      bootstrapSim G values L (List.map f) (iterPerJob n threads) (batch.getD n) (G.seed sd)) (by
    intro x hx
    obtain ⟨sd, -, rfl⟩ := List.mem_map.mp hx
    exact bootstrapSim_ok G hG values L f _ _ hb _)
  rw [List.length_map, hs] at h2
  exact ⟨l, by rw [this, h1], h2⟩

/-- C28 for several threads (the part that holds): if the number of threads divides the number of
iterations, exactly the requested number of replicates is evaluated, whatever the schedule. -/
theorem C28_threads_partial {σ α β : Type} (G : Rng σ) (hG : ValidRng G) (values : List α) (L : ℕ)
    (f : List α → β) (n : ℕ) (batch : Option ℕ) (hb : batch.getD n ≠ 0) (threads : ℕ) (ht : 1 < threads)
    (hdvd : threads ∣ n)
    (cpu : ℕ) (s : σ) (seeds : ℕ → List ℕ) (hs : ∀ k, (seeds k).length = k) (states : List σ)
    (schedule : List PoolEvent) (r : Except PyErr (List β))
    (h : bootstrapDistribution G values L (List.map f) n batch threads cpu s seeds states schedule =
      some r) :
    ∃ rs, r = .ok rs ∧ Replicates values f n rs := by
  obtain ⟨rs, h1, h2⟩ := C28_threads_actual G hG values L f n batch hb threads ht cpu s seeds hs states
    schedule r h
  obtain ⟨q, rfl⟩ := hdvd
  have e : iterPerJob (threads * q) threads = q := by
    unfold iterPerJob
    have : threads * q + threads - 1 = (threads - 1) + threads * q := by omega
    rw [this, Nat.add_mul_div_left _ _ (by omega), Nat.div_eq_of_lt (by omega), Nat.zero_add]
  rw [e] at h2
  exact ⟨rs, h1, h2⟩

/-- C28 fails for every number of threads that does not divide the number of iterations: more replicates
than requested are evaluated. -/
theorem C28_threads_counterexample {σ α β : Type} (G : Rng σ) (hG : ValidRng G) (values : List α) (L : ℕ)
    (f : List α → β) (n : ℕ) (batch : Option ℕ) (hb : batch.getD n ≠ 0) (threads : ℕ) (ht : 1 < threads)
    (hdvd : ¬ threads ∣ n)
    (cpu : ℕ) (s : σ) (seeds : ℕ → List ℕ) (hs : ∀ k, (seeds k).length = k) (states : List σ)
    (schedule : List PoolEvent) (r : Except PyErr (List β))
    (h : bootstrapDistribution G values L (List.map f) n batch threads cpu s seeds states schedule =
      some r) :
    ∃ rs, r = .ok rs ∧ n < rs.length := by
  obtain ⟨rs, h1, sims, h2, -, h3⟩ := C28_threads_actual G hG values L f n batch hb threads ht cpu s seeds
    hs states schedule r h
  refine ⟨rs, h1, ?_⟩
  rw [h3, List.length_map, h2]
  unfold iterPerJob
  have e := Nat.div_add_mod (n + threads - 1) threads
  have e2 := Nat.mod_lt (n + threads - 1) (by omega : 0 < threads)
  have : n ≠ threads * ((n + threads - 1) / threads) := fun h => hdvd ⟨_, h⟩
  omega

/-- Five replicates on two threads become six. -/
example : bootstrapDistribution countRng [10, 20, 40] 2 (List.map List.sum) 5 none 2 4 0
    (fun k => List.range k) [7, 8] [.take 0, .take 1, .step 0, .step 1, .step 0, .step 1] =
    some (.ok [40, 70, 50, 80, 70, 100]) := by decide

end Metcalcpy.Props
