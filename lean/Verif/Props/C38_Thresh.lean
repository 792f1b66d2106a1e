/-
C38  Threshold sorting orders by value, then by operator, losing no rows.
C77  The ROC table has one point per threshold with the pooled rates (true), in threshold order (false).
C78  Thresholds with a text instead of a number are ordered by text, then operator (false for <=).
-/
import Verif.Spec.Thresh
import Verif.Props.C27_Bootstrap
import Mathlib.Data.List.Dedup

namespace Metcalcpy.Props
open Metcalcpy Spec

theorem opWeight_rank (o : Option ThrOp) : opWeight o = opRank o + 1 := by
  cases o with
  | none => rfl
  | some o => cases o <;> rfl

/-! ### Reading a threshold -/

theorem digit_not_op {d : Char} (h : d.isDigit = true) : isOpChar d = false := by
  cases hd : isOpChar d
  · rfl
  · unfold isOpChar at hd
    simp only [Bool.or_eq_true, beq_iff_eq] at hd
    rcases hd with (hd | hd) | hd <;> subst hd <;> exact absurd h (by decide)

theorem numberStart_iff (s : List Char) : numberStart s = true ↔ LooksNumeric s := by
  unfold numberStart LooksNumeric
  induction s with
  | nil =>
    simp
  | cons c s ih =>
    by_cases hc : c = '-'
    · subst hc
      rw [List.dropWhile_cons_of_pos (by decide), ih]
      constructor
      · rintro ⟨k, d, r, rfl, hd⟩
        exact ⟨k + 1, d, r, by rw [List.replicate_succ]; rfl, hd⟩
      · rintro ⟨k, d, r, h, hd⟩
        cases k with
        | zero =>
          simp only [List.replicate_zero, List.nil_append, List.cons.injEq] at h
          rw [← h.1] at hd; exact absurd hd (by decide)
        | succ k =>
          rw [List.replicate_succ, List.cons_append, List.cons.injEq] at h
          exact ⟨k, d, r, h.2, hd⟩
    · rw [List.dropWhile_cons_of_neg (by simpa using hc)]
      constructor
      · intro h; exact ⟨0, c, s, rfl, h⟩
      · rintro ⟨k, d, r, h, hd⟩
        cases k with
        | zero =>
          simp only [List.replicate_zero, List.nil_append, List.cons.injEq] at h
          simp only [h.1]; exact hd
        | succ k =>
          rw [List.replicate_succ, List.cons_append, List.cons.injEq] at h
          exact absurd h.1 hc

theorem looksNumeric_head {num : List Char} (h : LooksNumeric num) :
    ∃ c r, num = c :: r ∧ isOpChar c = false := by
  obtain ⟨k, d, rest, rfl, hd⟩ := h
  cases k with
  | zero => exact ⟨d, rest, rfl, digit_not_op hd⟩
  | succ k => exact ⟨'-', List.replicate k '-' ++ d :: rest, by rw [List.replicate_succ]; rfl, by decide⟩

theorem opText_ops (o : Option ThrOp) : ∀ c ∈ opText o, isOpChar c = true := by
  cases o with
  | none => simp [opText]
  | some o => cases o <;> decide

theorem split_op (o : Option ThrOp) (c : Char) (r : List Char) (hc : isOpChar c = false) :
    (opText o ++ c :: r).takeWhile isOpChar = opText o ∧
    (opText o ++ c :: r).dropWhile isOpChar = c :: r := by
  generalize hp : opText o = p
  have h := opText_ops o
  rw [hp] at h
  clear hp
  induction p with
  | nil => simp [hc]
  | cons x p ih =>
    have hx := h x (by simp)
    have := ih (fun y hy => h y (by simp [hy]))
    rw [List.cons_append, List.takeWhile_cons_of_pos hx, List.dropWhile_cons_of_pos hx, this.1, this.2]
    exact ⟨rfl, rfl⟩

theorem opsFull_opText (o : Option ThrOp) : opsFull (opText o) = some o := by
  cases o with
  | none => rfl
  | some o => cases o <;> decide

theorem classify_number {float : List Char → Option ℚ} {s : String} {o : Option ThrOp} {v : ℚ}
    (h : IsThreshold float s o v) : classify float s = .ok (o, .num v) := by
  obtain ⟨num, hs, hn, hf⟩ := h
  obtain ⟨c, r, rfl, hc⟩ := looksNumeric_head hn
  obtain ⟨h1, h2⟩ := split_op o c r hc
  simp only [classify, matchNumber, hs, h1, h2, (numberStart_iff _).mpr hn, if_true, opsFull_opText,
    Option.map_some, hf]

/-! ### Sorting -/

theorem filter_orderedInsert {α : Type} (r : α → α → Prop) [DecidableRel r] (p : α → Bool) (a : α)
    (l : List α) (h : ∀ b ∈ l, p a = true → p b = true → r a b) :
    (l.orderedInsert r a).filter p = (a :: l).filter p := by
  induction l with
  | nil => rfl
  | cons b l ih =>
    have ih := ih (fun c hc => h c (by simp [hc]))
    rw [List.orderedInsert_cons]
    split_ifs with hr
    · rfl
    · by_cases ha : p a = true
      · have hb : p b = false := by
          cases hb : p b
          · rfl
          · exact absurd (h b (by simp) ha hb) hr
        rw [List.filter_cons_of_neg (by simp [hb]), ih, List.filter_cons_of_pos ha,
          List.filter_cons_of_pos ha, List.filter_cons_of_neg (by simp [hb])]
      · rw [List.filter_cons, ih, List.filter_cons_of_neg ha, List.filter_cons_of_neg ha, List.filter_cons]

/-- Insertion sort keeps the order of related elements. -/
theorem filter_insertionSort {α : Type} (r : α → α → Prop) [DecidableRel r] (p : α → Bool)
    (h : ∀ a b, p a = true → p b = true → r a b) (l : List α) :
    (l.insertionSort r).filter p = l.filter p := by
  induction l with
  | nil => rfl
  | cons a l ih =>
    rw [List.insertionSort_cons, filter_orderedInsert r p a _ (fun b _ ha hb => h a b ha hb),
      List.filter_cons, List.filter_cons, ih]

section keyed
variable {κ α : Type} [LinearOrder κ] (key : α → κ × Option ThrOp)

theorem keyed_sort (asc : Bool) (rows : List α) :
    let out := (sortKeyed asc (rows.map (fun r => (((key r).1, opWeight (key r).2), r)))).map Prod.snd
    out.Perm rows ∧
    out.Pairwise (fun a b => if asc then ThreshLE (key a) (key b) else ThreshLE (key b) (key a)) ∧
    ∀ k : κ × Option ThrOp, out.filter (fun r => (key r).1 = k.1 ∧ opRank (key r).2 = opRank k.2) =
      rows.filter (fun r => (key r).1 = k.1 ∧ opRank (key r).2 = opRank k.2) := by
  have le_iff : ∀ a b : α, (toLex ((key a).1, opWeight (key a).2) ≤ toLex ((key b).1, opWeight (key b).2)) ↔
      ThreshLE (key a) (key b) := by
    intro a b
    rw [Prod.Lex.toLex_le_toLex, opWeight_rank, opWeight_rank]
    unfold ThreshLE
    simp
  cases asc with
  | true =>
    simp only [sortKeyed, if_true]
    let R : α → α → Prop := fun a b =>
      toLex ((key a).1, opWeight (key a).2) ≤ toLex ((key b).1, opWeight (key b).2)
    have e : (rows.map (fun r => (((key r).1, opWeight (key r).2), r))).insertionSort
        (fun a b => toLex a.1 ≤ toLex b.1) =
        (rows.insertionSort R).map (fun r => (((key r).1, opWeight (key r).2), r)) :=
      (List.map_insertionSort R (fun a b : (κ × ℕ) × α => toLex a.1 ≤ toLex b.1)
        (fun r => (((key r).1, opWeight (key r).2), r)) rows (fun a _ b _ => Iff.rfl)).symm
    rw [e, List.map_map]
    have e2 : (rows.insertionSort R).map (Prod.snd ∘ fun r => (((key r).1, opWeight (key r).2), r)) =
        rows.insertionSort R := by
      rw [show (Prod.snd ∘ fun r => (((key r).1, opWeight (key r).2), r)) = id from rfl, List.map_id]
    rw [e2]
    haveI : Std.Total R := ⟨fun a b => le_total _ _⟩
    haveI : IsTrans α R := ⟨fun a b c => le_trans⟩
    refine ⟨List.perm_insertionSort _ _, ?_, fun k => ?_⟩
    · exact (List.pairwise_insertionSort R rows).imp (fun {a b} h => (le_iff a b).mp h)
    · apply filter_insertionSort
      intro a b ha hb
      simp only [decide_eq_true_eq] at ha hb
      exact (le_iff a b).mpr (Or.inr ⟨ha.1.trans hb.1.symm, (ha.2.trans hb.2.symm).le⟩)
  | false =>
    simp only [sortKeyed, Bool.false_eq_true, if_false]
    let R : α → α → Prop := fun a b =>
      toLex ((key b).1, opWeight (key b).2) ≤ toLex ((key a).1, opWeight (key a).2)
    have e : (rows.map (fun r => (((key r).1, opWeight (key r).2), r))).insertionSort
        (fun a b => toLex b.1 ≤ toLex a.1) =
        (rows.insertionSort R).map (fun r => (((key r).1, opWeight (key r).2), r)) :=
      (List.map_insertionSort R (fun a b : (κ × ℕ) × α => toLex b.1 ≤ toLex a.1)
        (fun r => (((key r).1, opWeight (key r).2), r)) rows (fun a _ b _ => Iff.rfl)).symm
    rw [e, List.map_map]
    have e2 : (rows.insertionSort R).map (Prod.snd ∘ fun r => (((key r).1, opWeight (key r).2), r)) =
        rows.insertionSort R := by
      rw [show (Prod.snd ∘ fun r => (((key r).1, opWeight (key r).2), r)) = id from rfl, List.map_id]
    rw [e2]
    haveI : Std.Total R := ⟨fun a b => le_total _ _⟩
    haveI : IsTrans α R := ⟨fun a b c h1 h2 => le_trans h2 h1⟩
    refine ⟨List.perm_insertionSort _ _, ?_, fun k => ?_⟩
    · exact (List.pairwise_insertionSort R rows).imp (fun {a b} h => (le_iff b a).mp h)
    · apply filter_insertionSort
      intro a b ha hb
      simp only [decide_eq_true_eq] at ha hb
      exact (le_iff b a).mpr (Or.inr ⟨hb.1.trans ha.1.symm, (hb.2.trans ha.2.symm).le⟩)

end keyed

theorem zip_maps {α β γ : Type} (f : α → β) (g : α → γ) (l : List α) :
    ((l.map f).zip (l.map g)).zip l = l.map (fun r => ((f r, g r), r)) := by
  induction l with
  | nil => rfl
  | cons x l ih => simp [ih]

theorem getLast?_map_ne {α β : Type} (f : α → β) {l : List α} (h : l ≠ []) :
    ∃ a ∈ l, (l.map f).getLast? = some (f a) :=
  ⟨l.getLast h, List.getLast_mem h, by
    rw [List.getLast?_map, List.getLast?_eq_some_getLast h]; rfl⟩

/-- C38: for every non-empty frame whose thresholds all are "operator number", the result is a permutation
of the rows, ordered by number and then by <, <=, ==, >=, > (reversed when descending), and rows with equal
thresholds keep their order. -/
theorem C38_sorted {α : Type} (float : List Char → Option ℚ) (asc : Bool) (rows : List (String × α))
    (hne : rows ≠ []) (key : String × α → ℚ × Option ThrOp)
    (hk : ∀ r ∈ rows, IsThreshold float r.1 (key r).2 (key r).1) :
    ∃ out, sortByThresh float asc rows = .ok out ∧ out.Perm rows ∧
      out.Pairwise (fun a b => if asc then ThreshLE (key a) (key b) else ThreshLE (key b) (key a)) ∧
      ∀ k : ℚ × Option ThrOp, out.filter (fun r => (key r).1 = k.1 ∧ opRank (key r).2 = opRank k.2) =
        rows.filter (fun r => (key r).1 = k.1 ∧ opRank (key r).2 = opRank k.2) := by
  have hcls : rows.mapM (fun r => classify float r.1) =
      .ok (rows.map (fun r => ((key r).2, ThrVal.num (key r).1))) :=
    mapM_except_ok _ _ _ (fun r hr => classify_number (hk r hr))
  obtain ⟨a, _, hlast⟩ := getLast?_map_ne (fun r => ((key r).2, ThrVal.num (key r).1)) hne
  have hv : (rows.map (fun r => ((key r).2, ThrVal.num (key r).1))).filterMap (fun c => c.2.num?) =
      rows.map (fun r => (key r).1) := by
    rw [List.filterMap_map]
    induction rows with
    | nil => rfl
    | cons x l ih => simp [ThrVal.num?, Function.comp_def]
  refine ⟨_, ?_, keyed_sort key asc rows⟩
  simp only [sortByThresh, hcls, bind, Except.bind, hlast, hv, List.length_map, ne_eq, not_true_eq_false,
    if_false, List.map_map, Function.comp_def, zip_maps]

/-- C38: a frame without rows raises instead of returning an empty frame. -/
theorem C38_empty {α : Type} (float : List Char → Option ℚ) (asc : Bool) :
    sortByThresh float asc ([] : List (String × α)) = .error .unboundLocalError := rfl

/-- Numerals of the examples. -/
def exFloat (s : List Char) : Option ℚ :=
  if s = "2".toList then some 2 else if s = "10".toList then some 10
  else if s = "-1.5".toList then some (-3 / 2) else none

def exKey (r : String × ℕ) : ℚ × Option ThrOp :=
  if r.1 = ">=10" then (10, some .ge) else if r.1 = "<=2" then (2, some .le)
  else if r.1 = ">2" then (2, some .gt) else if r.1 = "2" then (2, none) else (-3 / 2, some .lt)

def exRows : List (String × ℕ) := [(">=10", 0), (">2", 1), ("<-1.5", 2), ("2", 3), ("<=2", 4)]

example : ∀ r ∈ exRows, IsThreshold exFloat r.1 (exKey r).2 (exKey r).1 := by
  intro r hr
  simp only [exRows, List.mem_cons, List.not_mem_nil, or_false] at hr
  rcases hr with rfl | rfl | rfl | rfl | rfl
  · exact ⟨"10".toList, by decide, ⟨0, '1', ['0'], by decide, by decide⟩, by decide +kernel⟩
  · exact ⟨"2".toList, by decide, ⟨0, '2', [], by decide, by decide⟩, by decide +kernel⟩
  · exact ⟨"-1.5".toList, by decide, ⟨1, '1', ['.', '5'], by decide, by decide⟩, by decide +kernel⟩
  · exact ⟨"2".toList, by decide, ⟨0, '2', [], by decide, by decide⟩, by decide +kernel⟩
  · exact ⟨"2".toList, by decide, ⟨0, '2', [], by decide, by decide⟩, by decide +kernel⟩

example : sortByThresh exFloat true exRows =
    .ok [("<-1.5", 2), ("<=2", 4), ("2", 3), (">2", 1), (">=10", 0)] := by decide +kernel

/-! ### C77 -/

/-- C77 (points): for every non-empty frame of numeric thresholds the ROC table has exactly one line for each
distinct threshold, holding POD and POFD of the pooled rows of this threshold. -/
theorem C77_points_partial (float : List Char → Option ℚ) (cols : List String) (asc : Bool)
    (rows : List (String × List Cell)) (hne : rows ≠ []) (key : String × List Cell → ℚ × Option ThrOp)
    (hkey : ∀ r s : String × List Cell, r.1 = s.1 → key r = key s)
    (hk : ∀ r ∈ rows, IsThreshold float r.1 (key r).2 (key r).1) :
    ∃ out, ctcRoc float cols asc rows = .ok out ∧ (out.map RocRow.thresh).Nodup ∧
      (∀ th, th ∈ out.map RocRow.thresh ↔ th ∈ rows.map Prod.fst) ∧
      ∀ p ∈ out, p.pody = ctcPody ⟨cols, (rows.filter (fun r => r.1 == p.thresh)).map Prod.snd⟩ ∧
        p.pofd = ctcPofd ⟨cols, (rows.filter (fun r => r.1 == p.thresh)).map Prod.snd⟩ := by
  obtain ⟨s, hs, hperm, _, hstab⟩ := C38_sorted float asc rows hne key hk
  have hsub : ∀ th, s.filter (fun r => r.1 == th) = rows.filter (fun r => r.1 == th) := by
    intro th
    let k := key (th, [])
    have h1 := congrArg (List.filter (fun r : String × List Cell => r.1 == th)) (hstab k)
    rw [List.filter_filter, List.filter_filter] at h1
    have e : ∀ r : String × List Cell, ((r.1 == th) && decide ((key r).1 = k.1 ∧ opRank (key r).2 = opRank k.2)) =
        (r.1 == th) := by
      intro r
      by_cases hr : r.1 = th
      · have : key r = k := hkey _ _ hr
        simp [hr, this]
      · simp [hr]
    simp only [e] at h1
    exact h1
  have hts : ∀ th, th ∈ (if asc then ((s.map Prod.fst).dedup).insertionSort (· ≤ ·)
      else (((s.map Prod.fst).dedup).insertionSort (· ≤ ·)).reverse) ↔ th ∈ rows.map Prod.fst := by
    intro th
    have : th ∈ ((s.map Prod.fst).dedup).insertionSort (· ≤ ·) ↔ th ∈ rows.map Prod.fst := by
      rw [List.mem_insertionSort, List.mem_dedup, (hperm.map Prod.fst).mem_iff]
    split_ifs
    · exact this
    · rw [List.mem_reverse]; exact this
  have hnd : (if asc then ((s.map Prod.fst).dedup).insertionSort (· ≤ ·)
      else (((s.map Prod.fst).dedup).insertionSort (· ≤ ·)).reverse).Nodup := by
    have : (((s.map Prod.fst).dedup).insertionSort (· ≤ ·)).Nodup :=
      (List.perm_insertionSort (· ≤ ·) _).nodup_iff.mpr (List.nodup_dedup _)
    split_ifs
    · exact this
    · exact List.nodup_reverse.mpr this
  refine ⟨_, by simp only [ctcRoc, hs, bind, Except.bind]; rfl, ?_, ?_, ?_⟩
  · rw [List.map_map, show (RocRow.thresh ∘ _) = id from rfl, List.map_id]; exact hnd
  · intro th
    rw [List.map_map, show (RocRow.thresh ∘ _) = id from rfl, List.map_id]; exact hts th
  · intro p hp
    obtain ⟨th, _, rfl⟩ := List.mem_map.mp hp
    simp only [hsub, and_self]

/-- C77 is false: the lines come in the order of the threshold strings: ">=10" before ">=2". -/
theorem C77_order_counterexample :
    (ctcRoc exFloat ["fy_oy", "fn_oy", "fy_on", "fn_on"] true
      [(">=2", [some 3, some 1, some 2, some 2]), (">=10", [some 1, some 3, some 0, some 4])]).map
        (fun l => l.map RocRow.thresh) = .ok [">=10", ">=2"] := by decide +kernel

/-! ### C78 -/

theorem numberStart_text {text : List Char} (h : ¬ LooksNumeric text) : numberStart text = false := by
  rw [← numberStart_iff] at h
  simpa using h

theorem matchText_plain (o : Option ThrOp) (text : List Char)
    (h : ∀ c ∈ text.head?, c ≠ '<' ∧ c ≠ '=' ∧ c ≠ '>') : matchText o text = (o, text) := by
  cases text with
  | nil => simp [matchText]
  | cons c r =>
    obtain ⟨h1, h2, h3⟩ := h c (by simp)
    rw [matchText]
    · rintro r' h; exact h1 (List.cons.inj h).1
    · rintro r' h; exact h2 (List.cons.inj h).1
    · rintro r' h; exact h3 (List.cons.inj h).1
    · rintro r' h; exact h3 (List.cons.inj h).1

theorem classify_text {float : List Char → Option ℚ} {s : String} {o : Option ThrOp} {text : String}
    (h : IsTextThreshold s o text) (ho : o ≠ some .le) : classify float s = .ok (o, .text text) := by
  obtain ⟨hs, hn, hh⟩ := h
  have hmn : matchNumber s.toList = none := by
    have key : (s.toList).dropWhile isOpChar = text.toList := by
      rw [hs]
      cases ht : text.toList with
      | nil =>
        rw [List.append_nil]
        cases o with
        | none => rfl
        | some o => cases o <;> rfl
      | cons c r =>
        rw [ht] at hh
        obtain ⟨h1, h2, h3⟩ := hh c (by simp)
        exact (split_op o c r (by simp [isOpChar, h1, h2, h3])).2
    simp only [matchNumber, key, numberStart_text hn, Bool.false_eq_true, if_false]
  have hmt : matchText none s.toList = (o, text.toList) := by
    rw [hs]
    have hp := fun o => matchText_plain o text.toList hh
    cases o with
    | none => exact hp none
    | some o =>
      cases o with
      | lt => simp only [opText, List.cons_append, List.nil_append, matchText]; exact hp _
      | le => exact absurd rfl ho
      | eq => simp only [opText, List.cons_append, List.nil_append, matchText]; exact hp _
      | ge => simp only [opText, List.cons_append, List.nil_append, matchText]; exact hp _
      | gt =>
        simp only [opText, List.cons_append, List.nil_append]
        rw [matchText]
        · exact hp _
        · rintro r' h
          have hc := hh '=' (by rw [h]; rfl)
          exact hc.2.1 rfl
  simp only [classify, hmn, hmt, String.ofList_toList]

/-- C78 (without <=): a non-empty frame of text thresholds is ordered by text, then operator. -/
theorem C78_text_partial {α : Type} (float : List Char → Option ℚ) (asc : Bool) (rows : List (String × α))
    (hne : rows ≠ []) (key : String × α → String × Option ThrOp)
    (hk : ∀ r ∈ rows, IsTextThreshold r.1 (key r).2 (key r).1 ∧ (key r).2 ≠ some .le) :
    ∃ out, sortByThresh float asc rows = .ok out ∧ out.Perm rows ∧
      out.Pairwise (fun a b => if asc then ThreshLE (key a) (key b) else ThreshLE (key b) (key a)) := by
  have hcls : rows.mapM (fun r => classify float r.1) =
      .ok (rows.map (fun r => ((key r).2, ThrVal.text (key r).1))) :=
    mapM_except_ok _ _ _ (fun r hr => classify_text (hk r hr).1 (hk r hr).2)
  obtain ⟨a, _, hlast⟩ := getLast?_map_ne (fun r => ((key r).2, ThrVal.text (key r).1)) hne
  have hv : (rows.map (fun r => ((key r).2, ThrVal.text (key r).1))).filterMap (fun c => c.2.text?) =
      rows.map (fun r => (key r).1) := by
    rw [List.filterMap_map]
    induction rows with
    | nil => rfl
    | cons x l ih => simp [ThrVal.text?, Function.comp_def]
  have := keyed_sort key asc rows
  refine ⟨_, ?_, this.1, this.2.1⟩
  simp only [sortByThresh, hcls, bind, Except.bind, hlast, hv, List.length_map, ne_eq, not_true_eq_false,
    if_false, List.map_map, Function.comp_def, zip_maps]

example : IsTextThreshold ">=SFP50" (some .ge) "SFP50" := by
  refine ⟨by decide, ?_, by decide⟩
  rw [← numberStart_iff]; decide

/-- C78 is false: "<=B" is read as operator "<" and text "=B", so it is placed before "<A". -/
theorem C78_counterexample :
    sortByThresh exFloat true [("<A", 0), ("<=B", 1)] = .ok [("<=B", 1), ("<A", 0)] ∧
    IsTextThreshold "<A" (some .lt) "A" ∧ IsTextThreshold "<=B" (some .le) "B" := by
  refine ⟨by decide +kernel, ⟨by decide, ?_, by decide⟩, ⟨by decide, ?_, by decide⟩⟩ <;>
    rw [← numberStart_iff] <;> decide

/-- C78 is false for mixtures: one number among texts raises ValueError. -/
theorem C78_mixed_counterexample :
    sortByThresh exFloat true [(">A", 0), (">=2", 1)] = .error .valueError := by decide +kernel

end Metcalcpy.Props
