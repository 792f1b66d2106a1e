/-
C25  create_permutations enumerates the full cartesian product exactly once.
C26  create_permutations_mv enumerates every combination.
-/
import Verif.Model.Permutations
import Verif.Spec.Permutations
import Mathlib.Algebra.BigOperators.Group.List.Basic
import Mathlib.Data.List.Nodup
import Mathlib.Data.List.Induction
import Mathlib.Data.List.Forall2
import Mathlib.Tactic.Ring

namespace Metcalcpy.Props
open Metcalcpy Spec

variable {α : Type}

theorem createPermutations_snoc (ls : List (List α)) (l : List α) :
    createPermutations (ls ++ [l]) =
      (createPermutations ls).flatMap fun x => l.map fun y => x ++ [y] := by
  simp [createPermutations, List.foldl_append]

theorem createPermutations_gen (ls : List (List α)) (acc : List (List α)) :
    ls.foldl (fun result pool => result.flatMap fun x => pool.map fun y => x ++ [y]) acc =
      acc.flatMap fun p => (createPermutations ls).map fun q => p ++ q := by
  induction ls using List.reverseRecOn generalizing acc with
  | nil => simp [createPermutations]
  | append_singleton ls l ih =>
    rw [List.foldl_append, ih, createPermutations_snoc]
    simp only [List.foldl_cons, List.foldl_nil, List.flatMap_assoc, List.map_flatMap, List.map_map,
      List.flatMap_map]
    apply List.flatMap_congr
    intro a _
    apply List.flatMap_congr
    intro b _
    simp [Function.comp_def]

/-- C25: order of enumeration: the first list varies slowest. -/
theorem C25_order (l : List α) (ls : List (List α)) :
    createPermutations ([] : List (List α)) = [[]] ∧
    createPermutations (l :: ls) = l.flatMap fun a => (createPermutations ls).map fun c => a :: c := by
  refine ⟨rfl, ?_⟩
  have := createPermutations_gen ls (l.map fun y => [y])
  simp only [createPermutations, List.foldl_cons]
  simp only [List.flatMap_cons, List.flatMap_nil, List.nil_append, List.append_nil]
  rw [this]
  simp [List.flatMap_map, createPermutations]

/-- C25: the result contains exactly the combinations with one element from each list. -/
theorem C25_exactly_the_combinations (ls : List (List α)) (c : List α) :
    c ∈ createPermutations ls ↔ IsCombination ls c := by
  induction ls generalizing c with
  | nil => simp [(C25_order ([] : List α) []).1, IsCombination]
  | cons l ls ih =>
    rw [(C25_order l ls).2]
    simp only [List.mem_flatMap, List.mem_map, ih, IsCombination]
    constructor
    · rintro ⟨a, ha, d, hd, rfl⟩
      exact List.Forall₂.cons ha hd
    · intro h
      cases h with
      | cons h1 h2 => exact ⟨_, h1, _, h2, rfl⟩

/-- C25: the number of combinations is the product of the list sizes. -/
theorem C25_count (ls : List (List α)) :
    (createPermutations ls).length = (ls.map List.length).prod := by
  induction ls with
  | nil => simp [createPermutations]
  | cons l ls ih =>
    rw [(C25_order l ls).2]
    simp [List.length_flatMap, ih]

/-- C25: no combination occurs twice unless an input list has a repeated element. -/
theorem C25_no_duplicates (ls : List (List α)) (h : ∀ l ∈ ls, l.Nodup) :
    (createPermutations ls).Nodup := by
  induction ls with
  | nil => simp [createPermutations]
  | cons l ls ih =>
    rw [(C25_order l ls).2, List.nodup_flatMap]
    have hl : ∀ l' ∈ ls, l'.Nodup := fun l' hl' => h l' (by simp [hl'])
    refine ⟨fun a _ => (ih hl).map (fun x y hxy => by simpa using hxy), ?_⟩
    have := h l (by simp)
    apply List.Pairwise.imp _ this
    intro a b hab
    simp only [Function.onFun, List.disjoint_left, List.mem_map]
    rintro x ⟨c, -, rfl⟩ ⟨d, -, hd⟩
    exact hab (by simp at hd; exact hd.1.symm)

example : createPermutations [["GFS"], ["NH", "SH", "TROP"]] =
    [["GFS", "NH"], ["GFS", "SH"], ["GFS", "TROP"]] := by decide
example : ∀ l ∈ [["GFS"], ["NH", "SH", "TROP"]], l.Nodup := by decide

/-! ### C26 -/

/-- With at least two non-empty lists the result is the mirrored product: the first list varies
fastest. -/
theorem mvFrom_eq (ls : List (List α)) (hne : ∀ l ∈ ls, l ≠ []) (h2 : 2 ≤ ls.length) :
    ∃ cs : List (List α), mvFrom ls = cs.map .list ∧ (∀ c, c ∈ cs ↔ IsCombination ls c) ∧
      cs.length = (ls.map List.length).prod ∧ ((∀ l ∈ ls, l.Nodup) → cs.Nodup) := by
  induction ls with
  | nil => simp at h2
  | cons l ls ih =>
    have hl : l ≠ [] := hne l (by simp)
    have step : ∀ (cs : List (List α)), mvFrom (l :: ls) = mvCombine l (mvFrom ls) →
        (mvCombine l (mvFrom ls) = (cs.flatMap fun c => l.map fun v => v :: c).map .list) →
        (∀ c, c ∈ cs ↔ IsCombination ls c) → cs.length = (ls.map List.length).prod →
        ((∀ l' ∈ ls, l'.Nodup) → cs.Nodup) →
        ∃ cs : List (List α), mvFrom (l :: ls) = cs.map .list ∧
          (∀ c, c ∈ cs ↔ IsCombination (l :: ls) c) ∧
          cs.length = ((l :: ls).map List.length).prod ∧ ((∀ l' ∈ l :: ls, l'.Nodup) → cs.Nodup) := by
      intro cs e1 e2 e3 e4 e5
      refine ⟨_, e1.trans e2, ?_, ?_, ?_⟩
      · intro c
        simp only [List.mem_flatMap, List.mem_map, e3, IsCombination]
        constructor
        · rintro ⟨d, hd, a, ha, rfl⟩
          exact List.Forall₂.cons ha hd
        · intro h
          cases h with
          | cons h1 h2 => exact ⟨_, h2, _, h1, rfl⟩
      · simp [List.length_flatMap, e4, mul_comm]
      · intro hnd
        rw [List.nodup_flatMap]
        refine ⟨fun c _ => (hnd l (by simp)).map (fun x y hxy => by simpa using hxy), ?_⟩
        apply List.Pairwise.imp _ (e5 fun l' hl' => hnd l' (by simp [hl']))
        intro a b hab
        simp only [Function.onFun, List.disjoint_left, List.mem_map]
        rintro x ⟨c, -, rfl⟩ ⟨d, -, hd⟩
        exact hab (by simp at hd; exact hd.2.symm)
    match ls, h2, hne, ih, step with
    | [m], _, hne, ih, step =>
      have e1 : mvFrom [l, m] = mvCombine l (mvFrom [m]) := by
        simp [mvFrom, List.isEmpty_iff, hl]
      refine step (m.map fun a => [a]) e1 ?_ ?_ (by simp) ?_
      · simp [mvCombine, mvFrom, List.flatMap_map, List.map_flatMap, Function.comp_def]
      · intro c
        simp only [List.mem_map, IsCombination]
        constructor
        · rintro ⟨a, ha, rfl⟩; exact List.Forall₂.cons ha List.Forall₂.nil
        · intro h
          cases h with
          | cons h1 h2 => cases h2; exact ⟨_, h1, rfl⟩
      · intro h
        exact (h m (by simp)).map (fun x y hxy => by simpa using hxy)
    | m :: k :: ls, _, hne, ih, step =>
      have e1 : mvFrom (l :: m :: k :: ls) = mvCombine l (mvFrom (m :: k :: ls)) := by
        conv_lhs => unfold mvFrom
        simp [List.isEmpty_iff, hl]
      obtain ⟨cs, h1, h2', h3, h4⟩ := ih (fun l' hl' => hne l' (by simp [hl'])) (by simp)
      refine step cs e1 ?_ h2' h3 h4
      rw [h1]
      simp [mvCombine, List.flatMap_map, List.map_flatMap, Function.comp_def]

/-- C26: for two or more non-empty lists the result is a list of value lists, namely exactly all
combinations; their number is the product of the sizes and none is repeated unless a list has a
repeated value. -/
theorem C26_list (ls : List (List α)) (hne : ∀ l ∈ ls, l ≠ []) (h2 : 2 ≤ ls.length) :
    ∃ cs : List (List α), createPermutationsMvList ls 0 = .ok (cs.map .list) ∧
      (∀ c, c ∈ cs ↔ IsCombination ls c) ∧ cs.length = (ls.map List.length).prod ∧
      ((∀ l ∈ ls, l.Nodup) → cs.Nodup) := by
  obtain ⟨cs, h1, h⟩ := mvFrom_eq ls hne h2
  refine ⟨cs, ?_, h⟩
  have : ls ≠ [] := by rintro rfl; simp at h2
  unfold createPermutationsMvList
  rw [if_neg this, if_neg (by omega)]
  simp [h1]

/-- C26: for a dictionary the entries without values are left out and the result enumerates the
combinations of the remaining ones; a single remaining entry returns its bare values, none returns the
empty list. -/
theorem C26_dict (fs : List (String × List α)) (ls : List (List α))
    (hls : ls = (fs.map Prod.snd).filter fun v => !v.isEmpty) :
    (2 ≤ ls.length → ∃ cs : List (List α), createPermutationsMvDict fs 0 = .ok (cs.map .list) ∧
      (∀ c, c ∈ cs ↔ IsCombination ls c) ∧ cs.length = (ls.map List.length).prod ∧
      ((∀ l ∈ ls, l.Nodup) → cs.Nodup)) ∧
    (∀ l, ls = [l] → createPermutationsMvDict fs 0 = .ok (l.map .raw)) ∧
    (ls = [] → createPermutationsMvDict fs 0 = .ok []) := by
  subst hls
  refine ⟨?_, ?_, ?_⟩
  · intro h2
    apply C26_list _ _ h2
    intro l hl
    simp only [List.mem_filter] at hl
    intro h; simp [h] at hl
  · intro l hl
    simp only [createPermutationsMvDict, hl]
    simp [createPermutationsMvList, mvFrom]
  · intro h
    simp only [createPermutationsMvDict, h]
    simp [createPermutationsMvList]

example : createPermutationsMvDict [("model", ["a", "b"]), ("mask", []), ("lev", ["x", "y"])] 0 =
    .ok [.list ["a", "x"], .list ["b", "x"], .list ["a", "y"], .list ["b", "y"]] := rfl

/-- Beyond the claim: in a *list* of lists an empty first list is skipped but an empty last list
empties the whole result. -/
theorem C26_empty_inner_list (l : List α) (hl : l ≠ []) :
    createPermutationsMvList [[], l] 0 = .ok (l.map .raw) ∧
    createPermutationsMvList [l, []] 0 = .ok [] := by
  constructor
  · simp [createPermutationsMvList, mvFrom]
  · simp [createPermutationsMvList, mvFrom, mvCombine]

end Metcalcpy.Props
