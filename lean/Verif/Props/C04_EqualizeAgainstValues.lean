/-
C04  Equalization against stored cases keeps exactly the listed cases.
C05  Equalization against stored cases can be repeated on the same frame (false of the code).
-/
import Verif.Lemmas.EventEqualize
import Verif.Spec.EventEqualize

namespace Metcalcpy.Props
open Metcalcpy Spec

/-- The stored-case key of a row: "valid lead", always from the column `fcst_valid`. -/
def IsStoredKey (f : Frame) (r : List Val) (k : String) : Prop :=
  ∃ valid lead, HasCell f r "fcst_valid" valid ∧ HasCell f r "fcst_lead" lead ∧
    k = valid.text ++ " " ++ lead.text

open Classical in
/-- C04: for a rectangular frame with the columns `fcst_valid` and `fcst_lead` and no column
`equalize`, exactly the rows whose key is listed are kept, unchanged and in order; when there is none
the result is the empty frame without columns. -/
theorem C04_keeps_exactly_listed_cases (f : Frame) (cases : List String) (wf : FrameWF f)
    (hv : "fcst_valid" ∈ f.cols) (hl : "fcst_lead" ∈ f.cols) (hn : "equalize" ∉ f.cols) :
    ∃ f' out, eventEqualizeAgainstValues f cases = .ok (f', out) ∧
      out.rows = f.rows.filter (fun r => decide (∃ k ∈ cases, IsStoredKey f r k)) ∧
      out.cols = (if out.rows = [] then [] else f.cols) := by
  obtain ⟨v, hvi⟩ := Frame.idx?_of_mem hv
  obtain ⟨l, hli⟩ := Frame.idx?_of_mem hl
  set key : List Val → String := fun r => (cellAt r v).text ++ " " ++ (cellAt r l).text with hkey
  have hset : f.setCol "equalize" (fun r => .str (key r)) = withKey f key := by
    simp [Frame.setCol, Frame.idx?_eq_none.mpr hn, withKey]
  have hk : ∀ r ∈ f.rows, ((∃ k ∈ cases, IsStoredKey f r k) ↔ key r ∈ cases) := by
    intro r hr
    constructor
    · rintro ⟨k, hk, a, b, h1, h2, rfl⟩
      rw [← hasCell_unique hvi h1, ← hasCell_unique hli h2] at hk
      exact hk
    · intro h
      exact ⟨_, h, _, _, hasCell_cellAt hvi (wf r hr), hasCell_cellAt hli (wf r hr), rfl⟩
  have hrows : ((withKey f key).filterRows
      (fun r => decide ((cellAt r f.cols.length).text ∈ cases))).rows =
      (f.rows.filter (fun r => decide (∃ k ∈ cases, IsStoredKey f r k))).map
        (fun r => r ++ [.str (key r)]) := by
    simp only [Frame.filterRows, withKey, List.filter_map]
    congr 1
    apply List.filter_congr
    intro r hr
    simp only [Function.comp]
    rw [cellAt_append_last (wf r hr), decide_eq_decide]
    exact (hk r hr).symm
  unfold eventEqualizeAgainstValues
  simp only [hvi, hli, if_neg hn]
  have hset' : f.setCol "equalize"
      (fun r => .str ((cellAt r v).text ++ " " ++ (cellAt r l).text)) = withKey f key := hset
  rw [hset']
  split
  · next h =>
    refine ⟨_, _, rfl, ?_, by simp⟩
    have := List.length_eq_zero_iff.mp h
    rw [hrows] at this
    simpa using this
  · next h =>
    refine ⟨_, _, rfl, ?_, ?_⟩
    · simp only [Frame.dropLast]
      rw [hrows, List.map_map]
      have : (List.dropLast ∘ fun r : List Val => r ++ [Val.str (key r)]) = id := by
        funext r; simp
      rw [this, List.map_id]
    · have h0 : ¬ ((((withKey f key).filterRows
          (fun r => decide ((cellAt r f.cols.length).text ∈ cases))).dropLast).rows = []) := by
        intro e
        apply h
        simp only [Frame.dropLast, List.map_eq_nil_iff] at e
        simp [e]
      rw [if_neg h0]
      simp [Frame.dropLast, Frame.filterRows, withKey]

/-- C04: without a valid-time column the result is the empty frame and the caller's frame is unchanged. -/
theorem C04_no_valid_time (f : Frame) (cases : List String) (h : "fcst_valid" ∉ f.cols) :
    eventEqualizeAgainstValues f cases = .ok (f, { cols := [], rows := [] }) := by
  simp [eventEqualizeAgainstValues, Frame.idx?_eq_none.mpr h]

/-- The frame of the examples. -/
def exStored : Frame :=
  { cols := ["model", "fcst_valid", "fcst_lead"]
    rows := [[.str "A", .str "2020-01-01 00:00:00", .num 12 "12"],
             [.str "A", .str "2020-01-01 00:00:00", .num 24 "24"]] }

example : FrameWF exStored ∧ "fcst_valid" ∈ exStored.cols ∧ "fcst_lead" ∈ exStored.cols ∧
    "equalize" ∉ exStored.cols := by
  refine ⟨by unfold FrameWF; decide, by decide, by decide, by decide⟩

example : (eventEqualizeAgainstValues exStored ["2020-01-01 00:00:00 24"]).map (fun x => x.2) =
    .ok { cols := ["model", "fcst_valid", "fcst_lead"],
          rows := [[.str "A", .str "2020-01-01 00:00:00", .num 24 "24"]] } := by
  decide +kernel

/-- C05 is false: whenever the first call gets as far as filtering, the frame object has gained the key
column, and every further call with that frame object raises a ValueError. -/
theorem C05_repeat_counterexample :
    ∃ f cases f' out, eventEqualizeAgainstValues f cases = .ok (f', out) ∧ out.rows ≠ [] ∧
      ∀ cases', eventEqualizeAgainstValues f' cases' = .error .valueError := by
  refine ⟨exStored, ["2020-01-01 00:00:00 24"], _, _, rfl, by decide +kernel, fun cases' => rfl⟩

/-- C05, the general extent of the failure: for every frame with the time columns. -/
theorem C05_repeat_fails (f : Frame) (cases cases' : List String)
    (hv : "fcst_valid" ∈ f.cols) (f' out : Frame)
    (h : eventEqualizeAgainstValues f cases = .ok (f', out)) :
    eventEqualizeAgainstValues f' cases' = .error .valueError := by
  obtain ⟨v, hvi⟩ := Frame.idx?_of_mem hv
  unfold eventEqualizeAgainstValues at h
  simp only [hvi] at h
  cases hli : f.idx? "fcst_lead" with
  | none => simp [hli] at h
  | some l =>
    simp only [hli] at h
    by_cases hn : "equalize" ∈ f.cols
    · simp [hn] at h
    · simp only [if_neg hn] at h
      have hf' : f' = f.setCol "equalize"
          (fun r => .str ((cellAt r v).text ++ " " ++ (cellAt r l).text)) := by
        split at h <;> simp only [Except.ok.injEq, Prod.mk.injEq] at h <;> exact h.1.symm
      have hs : f' = withKey f (fun r => (cellAt r v).text ++ " " ++ (cellAt r l).text) := by
        rw [hf']; simp [Frame.setCol, Frame.idx?_eq_none.mpr hn, withKey]
      have hl : "fcst_lead" ∈ f.cols := by
        by_contra hc
        rw [Frame.idx?_eq_none.mpr hc] at hli
        simp at hli
      unfold eventEqualizeAgainstValues
      rw [hs, withKey_idx hv, withKey_idx hl, hvi, hli]
      simp [withKey]

/-- C05, what does hold: calling again with a fresh copy of the original frame (or with the returned
frame when it is not empty) gives the same rows.  Missing: the same for the very frame object passed to
the first call. -/
theorem C05_repeat_partial (f : Frame) (cases : List String) (wf : FrameWF f)
    (hv : "fcst_valid" ∈ f.cols) (hl : "fcst_lead" ∈ f.cols) (hn : "equalize" ∉ f.cols)
    (f' out : Frame) (h : eventEqualizeAgainstValues f cases = .ok (f', out)) (hne : out.rows ≠ []) :
    ∃ f'', eventEqualizeAgainstValues out cases = .ok (f'', out) := by
  classical
  obtain ⟨f1, o1, h1, h2, h3⟩ := C04_keeps_exactly_listed_cases f cases wf hv hl hn
  rw [h] at h1
  obtain ⟨rfl, rfl⟩ : f' = f1 ∧ out = o1 := by simpa using h1
  rw [if_neg hne] at h3
  have wfo : FrameWF out := by
    intro r hr
    rw [h3]
    rw [h2] at hr
    exact wf r (List.mem_filter.mp hr).1
  obtain ⟨g, o, g1, g2, g3⟩ := C04_keeps_exactly_listed_cases out cases wfo (by rwa [h3]) (by rwa [h3])
    (by rwa [h3])
  refine ⟨g, ?_⟩
  have hrows : o.rows = out.rows := by
    rw [g2, List.filter_eq_self]
    intro r hr
    rw [h2] at hr
    have := (List.mem_filter.mp hr).2
    simpa [IsStoredKey, HasCell, h3] using this
  have hcols : o.cols = out.cols := by
    rw [g3, hrows, if_neg hne]
  have : o = out := by
    have e : ∀ g : Frame, g = ⟨g.cols, g.rows⟩ := fun _ => rfl
    rw [e o, e out, hrows, hcols]
  rw [g1, this]

end Metcalcpy.Props
