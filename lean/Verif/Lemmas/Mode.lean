/-
What the MODE row filters do on a frame of objects.
-/
import Verif.Model.Mode
import Verif.Spec.Mode
import Verif.Lemmas.Frame
import Verif.Lemmas.Table
import Verif.Lemmas.Round

namespace Metcalcpy
open Spec

/-- The flag of an object that a filter column refers to. -/
def objFlag (o : ModeObj) (name : String) : Bool :=
  if name = "fcst_flag" then o.fcst else if name = "simple_flag" then o.simple else o.matched

def flagNames : List String := ["fcst_flag", "simple_flag", "matched_flag"]

/-- Does an object pass a filter on its flags? -/
def objSat (fs : List (String × ℤ)) (o : ModeObj) : Bool :=
  fs.all (fun p => (if objFlag o p.1 then (1 : ℤ) else 0) == p.2)

theorem pyTrunc_flag (b : Bool) : pyTrunc (if b then 1 else 0) = if b then 1 else 0 := by
  cases b <;> simp [pyTrunc]

theorem modeData_flag {f : Frame} {objs : List ModeObj} (D : ModeData f objs) {name : String}
    (hn : name ∈ flagNames) : ∃ i, f.idx? name = some i ∧
      List.Forall₂ (fun r o => ∃ t, cellAt r i = .num (if objFlag o name then 1 else 0) t) f.rows objs := by
  have hcol : name ∈ f.cols := by
    simp only [flagNames, List.mem_cons, List.not_mem_nil, or_false] at hn
    rcases hn with rfl | rfl | rfl
    · exact D.cols.1
    · exact D.cols.2.1
    · exact D.cols.2.2.1
  obtain ⟨i, hi⟩ := Frame.idx?_of_mem hcol
  refine ⟨i, hi, D.rows.imp ?_⟩
  rintro r o ⟨⟨v1, a1, t1, b1⟩, ⟨v2, a2, t2, b2⟩, ⟨v3, a3, t3, b3⟩, -⟩
  simp only [flagNames, List.mem_cons, List.not_mem_nil, or_false] at hn
  rcases hn with rfl | rfl | rfl
  · exact ⟨t1, by rw [hasCell_unique hi a1, b1]; rfl⟩
  · exact ⟨t2, by rw [hasCell_unique hi a2, b2]; rfl⟩
  · exact ⟨t3, by rw [hasCell_unique hi a3, b3]; rfl⟩

theorem filter_marked {f : Frame} {objs : List ModeObj} {i : ℕ} {name : String} {z : ℤ}
    {rows : List (List Val)}
    (h : List.Forall₂ (fun r o => ∃ t, cellAt r i = .num (if objFlag o name then 1 else 0) t) rows objs) :
    ∃ marked, rows.mapM (fun r => (cellEq (cellAt r i) (.int z)).map (fun b => (r, b))) = some marked ∧
      List.Forall₂ (fun (r : List Val) (_ : ModeObj) => r ∈ rows)
        ((marked.filter (fun p => p.2)).map Prod.fst)
        (objs.filter (fun o => (if objFlag o name then (1 : ℤ) else 0) == z)) ∧
      ∀ R : List Val → ModeObj → Prop, List.Forall₂ R rows objs → List.Forall₂ R
        ((marked.filter (fun p => p.2)).map Prod.fst)
        (objs.filter (fun o => (if objFlag o name then (1 : ℤ) else 0) == z)) := by
  induction h with
  | nil =>
    refine ⟨[], rfl, List.Forall₂.nil, ?_⟩
    intro R _; exact List.Forall₂.nil
  | @cons r o rs os hro hrs ih =>
    obtain ⟨marked, h1, h2, h3⟩ := ih
    obtain ⟨t, ht⟩ := hro
    have hc : cellEq (cellAt r i) (.int z) = some ((if objFlag o name then (1 : ℤ) else 0) == z) := by
      rw [ht]
      simp only [cellEq]
      rw [pyTrunc_flag]
    refine ⟨(r, (if objFlag o name then (1 : ℤ) else 0) == z) :: marked, ?_, ?_, ?_⟩
    · rw [mapM_eq_some_iff] at h1 ⊢
      rw [List.map_cons, hc, h1]; rfl
    · by_cases e : ((if objFlag o name then (1 : ℤ) else 0) == z) = true
      · simp only [List.filter_cons, e, if_true, List.map_cons]
        exact List.Forall₂.cons (by simp) (h2.imp (fun _ _ h => List.mem_cons_of_mem _ h))
      · simp only [List.filter_cons, e, if_false]
        exact h2.imp (fun _ _ h => List.mem_cons_of_mem _ h)
    · intro R hR
      cases hR with
      | cons a b =>
        by_cases e : ((if objFlag o name then (1 : ℤ) else 0) == z) = true
        · simp only [List.filter_cons, e, if_true, List.map_cons]
          exact List.Forall₂.cons a (h3 R b)
        · simp only [List.filter_cons, e, if_false]
          exact h3 R b

theorem filterStep_modeData {f : Frame} {objs : List ModeObj} (D : ModeData f objs) {name : String} {z : ℤ}
    (hn : name ∈ flagNames) : ∃ f', filterStep f name (.int z) = .ok f' ∧
      ModeData f' (objs.filter (fun o => (if objFlag o name then (1 : ℤ) else 0) == z)) := by
  obtain ⟨i, hi, hrows⟩ := modeData_flag D hn
  obtain ⟨marked, h1, h2, h3⟩ := filter_marked (f := f) (z := z) hrows
  refine ⟨{ f with rows := (marked.filter (fun p => p.2)).map Prod.fst }, ?_, ?_⟩
  · simp only [filterStep, hi, h1]
  · refine ⟨?_, h3 _ D.rows, D.cols⟩
    intro r hr
    obtain ⟨o, hm⟩ : ∃ o : ModeObj, r ∈ f.rows := by
      generalize (marked.filter (fun p => p.2)).map Prod.fst = L at h2 hr
      generalize objs.filter (fun o => (if objFlag o name then (1 : ℤ) else 0) == z) = M at h2
      clear h1 h3
      induction h2 with
      | nil => simp at hr
      | cons a _ ih =>
        rcases List.mem_cons.mp hr with e | e
        · subst e; exact ⟨‹_›, a⟩
        · exact ih e
    exact D.wf r hm

theorem filterData_modeData {f : Frame} {objs : List ModeObj} (D : ModeData f objs) (fs : List (String × ℤ))
    (hn : ∀ p ∈ fs, p.1 ∈ flagNames) :
    ∃ f', filterData f (fs.map (fun p => (p.1, .int p.2))) = .ok f' ∧ ModeData f' (objs.filter (objSat fs)) := by
  induction fs generalizing f objs with
  | nil =>
    refine ⟨f, rfl, ?_⟩
    have : objs.filter (objSat []) = objs := by
      rw [List.filter_eq_self]; intro a _; rfl
    rw [this]; exact D
  | cons p fs ih =>
    obtain ⟨f₁, h1, D₁⟩ := filterStep_modeData D (z := p.2) (hn p (by simp))
    obtain ⟨f', h2, D'⟩ := ih D₁ (fun q hq => hn q (by simp [hq]))
    refine ⟨f', ?_, ?_⟩
    · simp only [List.map_cons, filterData, h1, bind, Except.bind]
      exact h2
    · rw [List.filter_filter] at D'
      have : (fun a => objSat fs a && (if objFlag a p.1 then (1 : ℤ) else 0) == p.2) = objSat (p :: fs) := by
        funext o; simp [objSat, Bool.and_comm]
      rwa [this] at D'

theorem nrow_modeData {f : Frame} {objs : List ModeObj} (D : ModeData f objs) (fs : List (String × ℤ))
    (hn : ∀ p ∈ fs, p.1 ∈ flagNames) :
    nrowFiltered f (fs.map (fun p => (p.1, .int p.2))) = .ok (some (number objs (objSat fs))) := by
  obtain ⟨f', h1, D'⟩ := filterData_modeData D fs hn
  simp only [nrowFiltered, h1, number, D'.rows.length_eq]

theorem area_modeData {f : Frame} {objs : List ModeObj} (D : ModeData f objs) (fs : List (String × ℤ))
    (hn : ∀ p ∈ fs, p.1 ∈ flagNames) :
    areaFiltered f (fs.map (fun p => (p.1, .int p.2))) =
      .ok (if objs.filter (objSat fs) = [] then none else some (totalArea objs (objSat fs))) := by
  obtain ⟨f', h1, D'⟩ := filterData_modeData D fs hn
  obtain ⟨i, hi⟩ := Frame.idx?_of_mem D'.cols.2.2.2
  have key : ∀ (rows : List (List Val)) (os : List ModeObj),
      List.Forall₂ (fun r o => ∃ t, cellAt r i = .num o.area t) rows os →
      ((rows.map (fun r => cellAt r i)).any Val.isText = false) ∧
      (rows.map (fun r => cellAt r i)).filterMap Val.number? =
        os.map ModeObj.area := by
    intro rows os h
    induction h with
    | nil => simp
    | cons a _ ih =>
      obtain ⟨t, ht⟩ := a
      simp only [List.map_cons, List.any_cons, List.filterMap_cons, ht, ih.1, ih.2, Val.isText, Val.number?]
      simp
  have h := key f'.rows _ (D'.rows.imp (by
    rintro r o ⟨-, -, -, t, ht⟩
    exact ⟨t, hasCell_unique hi ht⟩))
  simp only [areaFiltered, h1, sumFrame, hi, h.1, h.2, totalArea]
  by_cases e : objs.filter (objSat fs) = []
  · simp [e]
  · simp [e]

end Metcalcpy
