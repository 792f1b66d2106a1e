/-
C44  Areas that are not numbers.
-/
import Verif.Props.C44_Mode

namespace Metcalcpy.Props
open Metcalcpy Spec

/-- C44: a text among the areas of a table makes every ratio to the area of all objects missing; areas that are missing are left
out. -/
theorem C44_text_area (num : List (String × ℤ)) (f : Frame) (i : ℕ) (hi : f.idx? "area" = some i) :
    (∀ r ∈ f.rows, ∀ s, cellAt r i = .str s → modeArea (.ratio num []) f = .ok none) ∧
    (∀ xs : List (Option (ℚ × String)), f.rows.map (fun r => cellAt r i) = xs.map (fun x => match x with
        | some q => Val.num q.1 q.2
        | none => .null) →
      areaFiltered f [] = .ok (if xs.filterMap id = [] then none else some ((xs.filterMap id).map Prod.fst).sum)) := by
  have hf : filterData f [] = .ok f := rfl
  constructor
  · intro r hr s hs
    have h0 : areaFiltered f [] = .ok none := by
      unfold areaFiltered
      rw [hf]
      simp only [sumFrame, hi]
      rw [if_pos]
      rw [List.any_eq_true]
      exact ⟨_, List.mem_map.mpr ⟨r, hr, hs⟩, rfl⟩
    have h1 : ∃ n, areaFiltered f (num.map (fun p => (p.1, .int p.2))) = .ok n := by
      unfold areaFiltered
      split
      · exact ⟨_, rfl⟩
      · exact ⟨_, rfl⟩
    obtain ⟨n, h1⟩ := h1
    unfold modeArea evalMode
    simp only [List.map_nil, h0, h1, bind, Except.bind]
    cases n <;> rfl
  · intro xs hx
    unfold areaFiltered
    rw [hf]
    simp only [sumFrame, hi, hx]
    have hn : ((xs.map (fun x => match x with
        | some q => Val.num q.1 q.2
        | none => .null)).filterMap Val.number?) = (xs.filterMap id).map Prod.fst := by
      clear hx
      induction xs with
      | nil => rfl
      | cons x xs ih =>
        cases x with
        | none => exact ih
        | some q => exact congrArg (q.1 :: ·) ih
    rw [if_neg, hn]
    · simp
    · rw [Bool.not_eq_true, List.any_eq_false]
      intro v hv
      obtain ⟨x, -, rfl⟩ := List.mem_map.mp hv
      cases x <;> simp [Val.isText]

/-- Two areas and one text. -/
example : modeArea ModeArea.fsa_aaa ⟨["fcst_flag", "simple_flag", "area"], [[.num 1 "1", .num 1 "1", .num 4 "4"],
    [.num 0 "0", .num 1 "1", .str "x"]]⟩ = .ok none :=
  (C44_text_area _ _ 2 (by decide)).1 [.num 0 "0", .num 1 "1", .str "x"] (by simp) "x" rfl

end Metcalcpy.Props
