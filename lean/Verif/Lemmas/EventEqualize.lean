import Verif.Lemmas.Frame
import Verif.Spec.EventEqualize

namespace Metcalcpy
open Spec

/-- The code's list of time columns is the one of the specification. -/
theorem timeColumns_eq : exceptionColumns = timeColumns := rfl

theorem eq_core {g : Frame} (wf : FrameWF g) (k : ℕ) {vars : List (String × List String)}
    (hv : ∀ v ∈ vars, v.1 ∈ g.cols) :
    ∃ cases, equalizationCases g k (vars.map Prod.fst) (product (vars.map Prod.snd)) = .ok cases ∧
      ∀ c, c ∈ cases ↔ (∀ v ∈ vars, v.2 ≠ []) ∧ ∀ p, Choice vars p →
        ∃ r ∈ g.rows, InSeries g p r ∧ (cellAt r k).text = c := by
  have hv' : ∀ v ∈ vars.map Prod.fst, v ∈ g.cols := by
    intro v hv0
    obtain ⟨x, hx, rfl⟩ := List.mem_map.mp hv0
    exact hv x hx
  obtain ⟨cases, h1, h2⟩ := equalizationCases_ok (g := g) k hv' (product (vars.map Prod.snd))
  refine ⟨cases, h1, fun c => ?_⟩
  rw [h2]
  have e1 : product (vars.map Prod.snd) ≠ [] ↔ ∀ v ∈ vars, v.2 ≠ [] := by
    rw [Ne, product_eq_nil]
    constructor
    · intro h v hv h0; exact h (List.mem_map.mpr ⟨v, hv, h0⟩)
    · intro h hm
      obtain ⟨v, hv, h0⟩ := List.mem_map.mp hm
      exact h v hv h0
  rw [e1]
  refine and_congr_right (fun _ => ?_)
  have hsel : ∀ q : List String, ∀ r ∈ g.rows, (selB g ((vars.map Prod.fst).zip q) r = true ↔
      InSeries g ((vars.map Prod.fst).zip q) r) := fun q r hr =>
    selB_iff (wf r hr) (fun x hx => hv' _ (zip_fst_mem hx))
  constructor
  · intro h p hp
    obtain ⟨q, hq, rfl⟩ := choice_iff.mp hp
    obtain ⟨r, hr, h3, h4⟩ := h q hq
    exact ⟨r, hr, (hsel q r hr).mp h3, h4⟩
  · intro h q hq
    obtain ⟨r, hr, h3, h4⟩ := h _ (choice_iff.mpr ⟨q, hq, rfl⟩)
    exact ⟨r, hr, (hsel q r hr).mpr h3, h4⟩

/-- The frame `f` with one more column. -/
def withKey (f : Frame) (key : List Val → String) : Frame :=
  { cols := f.cols ++ ["equalize"], rows := f.rows.map (fun r => r ++ [Val.str (key r)]) }

theorem withKey_wf {f : Frame} {key : List Val → String} (wf : FrameWF f) : FrameWF (withKey f key) := by
  intro r hr
  obtain ⟨r', hr', rfl⟩ := List.mem_map.mp hr
  simp [withKey, wf r' hr']

theorem withKey_idx {f : Frame} {key : List Val → String} {name : String} (h : name ∈ f.cols) :
    (withKey f key).idx? name = f.idx? name := Frame.idx?_append h

theorem withKey_key {f : Frame} {key : List Val → String} (h : "equalize" ∉ f.cols) :
    (withKey f key).idx? "equalize" = some f.cols.length := Frame.idx?_last h

theorem cellAt_append_lt {r : List Val} {x : Val} {i : ℕ} (h : i < r.length) :
    cellAt (r ++ [x]) i = cellAt r i := by
  simp [cellAt, List.getElem?_append_left h]

theorem cellAt_append_last {r : List Val} {x : Val} {n : ℕ} (h : r.length = n) :
    cellAt (r ++ [x]) n = x := by
  subst h; simp [cellAt]

theorem hasCell_withKey {f : Frame} {key : List Val → String} {name : String} (h : name ∈ f.cols)
    {r : List Val} (hr : r.length = f.cols.length) {x : Val} {v : Val} :
    HasCell (withKey f key) (r ++ [x]) name v ↔ HasCell f r name v := by
  obtain ⟨i, hi⟩ := Frame.idx?_of_mem h
  rw [hasCell_iff hi, hasCell_iff (by rw [withKey_idx h]; exact hi)]
  have := Frame.idx?_lt hi
  rw [List.getElem?_append_left (by omega)]

theorem inSeries_withKey {f : Frame} {key : List Val → String} {p : List (String × String)}
    (h : ∀ q ∈ p, q.1 ∈ f.cols) {r : List Val} (hr : r.length = f.cols.length) {x : Val} :
    InSeries (withKey f key) p (r ++ [x]) ↔ InSeries f p r := by
  unfold InSeries
  refine forall₂_congr (fun q hq => ?_)
  refine exists_congr (fun v => ?_)
  rw [hasCell_withKey (h q hq) hr]

theorem choice_fst {vars : List (String × List String)} {p : List (String × String)}
    (h : Choice vars p) : ∀ q ∈ p, q.1 ∈ vars.map Prod.fst := by
  obtain ⟨q, -, rfl⟩ := choice_iff.mp h
  intro x hx
  exact zip_fst_mem hx

theorem addKeyColumn_ok {f : Frame} {indy : String} {byIndep : Bool} (I : EqInput f indy byIndep)
    {key : List Val → String} (hkey : ∀ r ∈ f.rows, IsCaseKey f indy byIndep r (key r)) :
    addKeyColumn f indy byIndep = .ok (withKey f key) := by
  obtain ⟨wf, nokey, valid, lead, indep⟩ := I
  set vname := (if "fcst_valid_beg" ∈ f.cols then "fcst_valid_beg" else "fcst_valid") with hvn
  have hv : vname ∈ f.cols := by
    rw [hvn]; split
    · assumption
    · tauto
  obtain ⟨v, hvi⟩ := Frame.idx?_of_mem hv
  obtain ⟨l, hli⟩ := Frame.idx?_of_mem lead
  set base : List Val → String := fun r => (cellAt r v).text ++ " " ++ (cellAt r l).text with hbase
  have hset : f.setCol "equalize" (fun r => .str (base r)) = withKey f base := by
    simp [Frame.setCol, Frame.idx?_eq_none.mpr nokey, withKey]
  have hcolv : f.col vname = .ok v := by simp [Frame.col, hvi]
  have hcoll : f.col "fcst_lead" = .ok l := by simp [Frame.col, hli]
  have step1 : (if "equalize" ∈ f.cols then (.ok f : Except PyErr Frame)
    else if "fcst_valid_beg" ∈ f.cols then do
      let v ← f.col "fcst_valid_beg"
      let l ← f.col "fcst_lead"
      .ok (f.setCol "equalize" (fun r => .str ((cellAt r v).text ++ " " ++ (cellAt r l).text)))
    else if "fcst_valid" ∈ f.cols then do
      let v ← f.col "fcst_valid"
      let l ← f.col "fcst_lead"
      .ok (f.setCol "equalize" (fun r => .str ((cellAt r v).text ++ " " ++ (cellAt r l).text)))
    else .ok f) = .ok (withKey f base) := by
    rw [if_neg nokey]
    by_cases hb : "fcst_valid_beg" ∈ f.cols
    · simp only [hb, if_true] at hvn
      rw [hvn] at hcolv
      simp only [hb, if_true, hcolv, hcoll]
      rw [← hset]; rfl
    · simp only [hb, if_false] at hvn
      rw [hvn] at hcolv hv
      simp only [hb, if_false, hv, if_true, hcolv, hcoll]
      rw [← hset]; rfl
  unfold addKeyColumn
  rw [step1, timeColumns_eq]
  simp only [bind, Except.bind]
  by_cases hby : byIndep = true ∧ indy ∉ timeColumns
  · rw [if_pos hby]
    have hi := indep hby.1 hby.2
    obtain ⟨i, hii⟩ := Frame.idx?_of_mem hi
    have e1 : (withKey f base).col "equalize" = .ok f.cols.length := by
      simp [Frame.col, withKey_key nokey]
    have e2 : (withKey f base).col indy = .ok i := by
      simp [Frame.col, withKey_idx hi, hii]
    rw [e1, e2]
    simp only [Frame.setCol, withKey_key nokey]
    congr 1
    simp only [withKey, Frame.mk.injEq, true_and, List.map_map]
    apply List.map_congr_left
    intro r hr
    have hrl := wf r hr
    have hil := Frame.idx?_lt hii
    simp only [Function.comp]
    have : (r ++ [Val.str (base r)]).set f.cols.length
        (.str ((cellAt (r ++ [Val.str (base r)]) f.cols.length).text ++ " " ++
          (cellAt (r ++ [Val.str (base r)]) i).text)) =
        r ++ [.str (base r ++ " " ++ (cellAt r i).text)] := by
      rw [cellAt_append_last hrl, cellAt_append_lt (by omega), ← hrl]
      simp [Val.text]
    rw [this]
    obtain ⟨va, le, h1, h2, h3⟩ := hkey r hr
    rw [if_pos hby] at h3
    obtain ⟨w, h4, h5⟩ := h3
    rw [← hvn] at h1
    rw [h5, ← hasCell_unique hvi h1, ← hasCell_unique hli h2, ← hasCell_unique hii h4]
  · rw [if_neg hby]
    congr 1
    simp only [withKey, Frame.mk.injEq, true_and]
    apply List.map_congr_left
    intro r hr
    obtain ⟨va, le, h1, h2, h3⟩ := hkey r hr
    rw [if_neg hby] at h3
    rw [← hvn] at h1
    rw [h3, ← hasCell_unique hvi h1, ← hasCell_unique hli h2]

end Metcalcpy
