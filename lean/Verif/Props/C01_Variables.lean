/-
C01: which variables and values event equalization ranges over, for grouped values and time columns.
-/
import Verif.Lemmas.EventEqualize
import Verif.Spec.Ungroup
import Mathlib.Tactic.IntervalCases

namespace Metcalcpy.Props
open Metcalcpy Metcalcpy.Spec

theorem blank_iff (b : Char) : isBlank b = true ↔ b ∈ [' ', '\t', '\n', '\r'] := by
  simp [isBlank, or_assoc]

theorem two_of_length {x : List Char} (h : x.length = 2) : ∃ a b, x = [a, b] := by
  match x, h with
  | [a, b], _ => exact ⟨a, b, rfl⟩

theorem isDateTime_iff (w : List Char) : IsDateTime w ↔ w.length = 19 ∧ startsWithDateTime w = true := by
  constructor
  · rintro ⟨y, m, d, h, n, s, b, hy, hl, hd, hb, rfl⟩
    match y, hy with
    | [y1, y2, y3, y4], _ =>
    obtain ⟨m1, m2, rfl⟩ := two_of_length (hl m (by simp))
    obtain ⟨d1, d2, rfl⟩ := two_of_length (hl d (by simp))
    obtain ⟨h1, h2, rfl⟩ := two_of_length (hl h (by simp))
    obtain ⟨n1, n2, rfl⟩ := two_of_length (hl n (by simp))
    obtain ⟨s1, s2, rfl⟩ := two_of_length (hl s (by simp))
    refine ⟨rfl, ?_⟩
    rw [← blank_iff] at hb
    simp at hd
    simp [startsWithDateTime, hb, hd]
  · rintro ⟨hl, hs⟩
    unfold startsWithDateTime at hs
    rw [List.take_of_length_le (by omega)] at hs
    split at hs
    · next y1 y2 y3 y4 s1 m1 m2 s2 d1 d2 b h1 h2 c1 n1 n2 c2 e1 e2 =>
      simp only [Bool.and_eq_true, beq_iff_eq, List.all_cons, List.all_nil, and_true] at hs
      obtain ⟨⟨⟨⟨⟨hd, rfl⟩, rfl⟩, hb⟩, rfl⟩, rfl⟩ := hs
      refine ⟨[y1, y2, y3, y4], [m1, m2], [d1, d2], [h1, h2], [n1, n2], [e1, e2], b, rfl, by simp, ?_,
        (blank_iff b).mp hb, rfl⟩
      simp
      tauto
    · simp at hs

theorem startsWith_take (cs : List Char) : startsWithDateTime cs = startsWithDateTime (cs.take 19) := by
  unfold startsWithDateTime
  rw [List.take_take, min_self]

theorem startsWith_iff_prefix (cs : List Char) : startsWithDateTime cs = true ↔ ∃ w, IsDateTime w ∧ w <+: cs := by
  constructor
  · intro h
    refine ⟨cs.take 19, (isDateTime_iff _).mpr ⟨?_, by rw [← startsWith_take]; exact h⟩, List.take_prefix _ _⟩
    unfold startsWithDateTime at h
    split at h
    · next e => rw [e]; rfl
    · simp at h
  · rintro ⟨w, hw, r, rfl⟩
    obtain ⟨h1, h2⟩ := (isDateTime_iff w).mp hw
    rw [startsWith_take, List.take_append_of_le_length (by omega), List.take_of_length_le (by omega)]
    exact h2

theorem find_skip (a b : List Char) : findDateTimes a.length (a ++ b) = findDateTimes 0 b := by
  induction a with
  | nil => rfl
  | cons c a ih => simpa [findDateTimes] using ih

theorem find_date {w : List Char} (hw : IsDateTime w) (r : List Char) :
    findDateTimes 0 (w ++ r) = String.ofList w :: findDateTimes 0 r := by
  have hs : startsWithDateTime (w ++ r) = true := (startsWith_iff_prefix _).mpr ⟨w, hw, w.prefix_append r⟩
  obtain ⟨hl, -⟩ := (isDateTime_iff w).mp hw
  cases w with
  | nil => simp at hl
  | cons c w =>
    rw [List.cons_append] at hs ⊢
    rw [findDateTimes, if_pos hs]
    have hlw : w.length = 18 := by simpa using hl
    congr 1
    · rw [← List.cons_append, List.take_append_of_le_length (by omega), List.take_of_length_le (by omega)]
    · rw [← hlw]; exact find_skip w r

theorem find_colon (r : List Char) : findDateTimes 0 (':' :: r) = findDateTimes 0 r := by
  rw [findDateTimes, if_neg]
  intro h
  obtain ⟨w, hw, hp⟩ := (startsWith_iff_prefix _).mp h
  obtain ⟨y, m, d, h, n, s, b, hy, hl, hd, hb, rfl⟩ := hw
  match y, hy with
  | [y1, y2, y3, y4], _ =>
  obtain ⟨t, ht⟩ := hp
  simp only [List.cons_append, List.cons.injEq] at ht
  have := hd [y1, y2, y3, y4] (by simp) y1 (by simp)
  rw [ht.1] at this
  revert this; decide

theorem intercalate_cons_cons {α : Type*} (s a b : List α) (l : List (List α)) :
    s.intercalate (a :: b :: l) = a ++ s ++ s.intercalate (b :: l) := by
  simp [List.intercalate, List.intersperse]

theorem find_dates (l : List (List Char)) (hl : ∀ w ∈ l, IsDateTime w) :
    findDateTimes 0 ([':'].intercalate l) = l.map String.ofList := by
  induction l with
  | nil => rfl
  | cons a l ih =>
    cases l with
    | nil =>
      have := find_date (hl a (by simp)) []
      rw [List.append_nil] at this
      simp [List.intercalate, this, findDateTimes]
    | cons b l =>
      rw [intercalate_cons_cons, List.append_assoc, find_date (hl a (by simp)), List.singleton_append, find_colon,
        ih (fun w hw => hl w (by simp at hw ⊢; tauto))]
      rfl

theorem find_none (cs : List Char) (h : ∀ d, IsDateTime d → ¬ d <:+: cs) (k : ℕ) : findDateTimes k cs = [] := by
  induction cs generalizing k with
  | nil => cases k <;> rfl
  | cons c cs ih =>
    have h' : ∀ d, IsDateTime d → ¬ d <:+: cs := fun d hd hi => h d hd (hi.trans (List.suffix_cons c cs).isInfix)
    cases k with
    | succ k => simpa [findDateTimes] using ih h' k
    | zero =>
      rw [findDateTimes, if_neg]
      · exact ih h' 0
      · intro hs
        obtain ⟨w, hw, hp⟩ := (startsWith_iff_prefix _).mp hs
        exact h w hw hp.isInfix

theorem splitColon_plain (a r : List Char) (ha : ':' ∉ a) :
    splitColon (a ++ ':' :: r) = a :: splitColon r ∧ splitColon a = [a] := by
  induction a with
  | nil =>
    refine ⟨?_, rfl⟩
    have hne : ∀ r : List Char, splitColon r ≠ [] := by
      intro r
      induction r with
      | nil => simp [splitColon]
      | cons c r ih =>
        rw [splitColon]
        split
        · simp
        · split <;> simp
    rw [List.nil_append, splitColon]
    cases e : splitColon r with
    | nil => exact absurd e (hne r)
    | cons w ws => simp
  | cons c a ih =>
    have hc : (c == ':') = false := by
      simp only [List.mem_cons, not_or] at ha
      simpa using fun e => ha.1 e.symm
    have := ih (fun hm => ha (by simp [hm]))
    constructor
    · rw [List.cons_append, splitColon, this.1]; simp [hc]
    · rw [splitColon, this.2]; simp [hc]

theorem splitColon_join (l : List (List Char)) (hne : l ≠ []) (hl : ∀ w ∈ l, ':' ∉ w) :
    splitColon ([':'].intercalate l) = l := by
  induction l with
  | nil => exact absurd rfl hne
  | cons a l ih =>
    cases l with
    | nil => simpa [List.intercalate] using (splitColon_plain a [] (hl a (by simp))).2
    | cons b l =>
      rw [intercalate_cons_cons, List.append_assoc, List.singleton_append,
        (splitColon_plain a _ (hl a (by simp))).1, ih (by simp) (fun w hw => hl w (by simp at hw ⊢; tauto))]

/-- C01: the text of a group stands for its values. -/
theorem C01_ungroup (v : String) (vals : List String) (h : IsGroup v vals) : ungroup v = vals := by
  obtain ⟨hne, hv, hd⟩ := h
  have back : (vals.map String.toList).map String.ofList = vals := by
    rw [List.map_map]
    conv_rhs => rw [← List.map_id vals]
    exact List.map_congr_left fun x _ => by simp [String.ofList_toList]
  unfold ungroup
  rcases hd with hd | ⟨hc, hd⟩
  · have e := find_dates (vals.map String.toList) (by
      intro w hw
      obtain ⟨x, hx, rfl⟩ := List.mem_map.mp hw
      exact hd x hx)
    rw [← hv, back] at e
    simp only [e]
    rw [if_neg (by simpa using hne)]
  · simp only [find_none _ hd 0, List.length_nil, if_true]
    rw [hv, splitColon_join _ (by simpa using hne), back]
    intro w hw
    obtain ⟨x, hx, rfl⟩ := List.mem_map.mp hw
    exact hc x hx

/-- C01: event equalization ranges over exactly the listed series variables, with every group replaced by its values,
and the fixed variables, in both cases without the time columns. -/
theorem C01_variables (series : List (String × List String)) (fix : List (String × List String))
    (g : String → List String) (hg : ∀ x ∈ series, x.1 ∉ timeColumns → ∀ v ∈ x.2, IsGroup v (g v))
    (hd : ((series ++ fix).map Prod.fst).Nodup) :
    addFixVars (seriesVarsForEE series) (fix.map Prod.fst) (fix.map Prod.snd) =
      .ok ((series.filter (fun x => x.1 ∉ timeColumns)).map (fun x => (x.1, x.2.flatMap g)) ++
        fix.filter (fun x => x.1 ∉ timeColumns)) := by
  have hdict : ∀ (d : List (String × List String)) (key : String) (v : List String),
      key ∉ d.map Prod.fst → dictSet d key v = d ++ [(key, v)] := by
    intro d key v h
    unfold dictSet
    rw [if_neg]
    simp only [List.any_eq_true, beq_iff_eq, not_exists, not_and]
    intro x hx e
    exact h (List.mem_map.mpr ⟨x, hx, e⟩)
  have hser : ∀ (s d : List (String × List String)),
      (∀ x ∈ s, x.1 ∉ timeColumns → ∀ v ∈ x.2, IsGroup v (g v)) → ((d ++ s).map Prod.fst).Nodup →
      s.foldl (fun d p => if p.1 ∈ exceptionColumns then d else dictSet d p.1 (p.2.flatMap ungroup)) d =
        d ++ (s.filter (fun x => x.1 ∉ timeColumns)).map (fun x => (x.1, x.2.flatMap g)) := by
    intro s
    induction s with
    | nil => intro d _ _; simp
    | cons x s ih =>
      intro d h1 h2
      rw [List.foldl_cons, timeColumns_eq]
      rw [timeColumns_eq] at ih
      have h1' : ∀ y ∈ s, y.1 ∉ timeColumns → ∀ v ∈ y.2, IsGroup v (g v) := fun y hy => h1 y (by simp [hy])
      by_cases hx : x.1 ∈ timeColumns
      · rw [if_pos hx, ih d h1' ?_, List.filter_cons_of_neg (by simpa using hx)]
        simp only [List.map_append, List.map_cons] at h2 ⊢
        exact h2.sublist ((List.Sublist.refl _).append (List.sublist_cons_self _ _))
      · have e : x.2.flatMap ungroup = x.2.flatMap g := by
          apply List.flatMap_congr
          intro v hv
          exact C01_ungroup v _ (h1 x (by simp) hx v hv)
        rw [if_neg hx, hdict, ih _ h1', List.filter_cons_of_pos (by simpa using hx), e]
        · simp
        · simpa using h2
        · intro hm
          simp only [List.map_append, List.map_cons] at h2
          exact (List.nodup_append.mp h2).2.2 _ hm _ (by simp) rfl
  have hfix : ∀ (fx d : List (String × List String)), ((d ++ fx).map Prod.fst).Nodup →
      addFixVars d (fx.map Prod.fst) (fx.map Prod.snd) = .ok (d ++ fx.filter (fun x => x.1 ∉ timeColumns)) := by
    intro fx
    induction fx with
    | nil => intro d _; simp [addFixVars]
    | cons x fx ih =>
      intro d h2
      simp only [List.map_cons, addFixVars]
      rw [timeColumns_eq]
      by_cases hx : x.1 ∈ timeColumns
      · rw [if_pos hx, List.tail_cons, ih d ?_, List.filter_cons_of_neg (by simpa using hx)]
        simp only [List.map_append, List.map_cons] at h2 ⊢
        exact h2.sublist ((List.Sublist.refl _).append (List.sublist_cons_self _ _))
      · rw [if_neg hx, hdict, ih, List.filter_cons_of_pos (by simpa using hx)]
        · simp
        · simpa using h2
        · intro hm
          simp only [List.map_append, List.map_cons] at h2
          exact (List.nodup_append.mp h2).2.2 _ hm _ (by simp) rfl
  have e := hser series [] hg (by
    simp only [List.nil_append]
    rw [List.map_append] at hd
    exact (List.nodup_append.mp hd).1)
  rw [List.nil_append] at e
  rw [seriesVarsForEE, e]
  apply hfix
  refine hd.sublist ?_
  simp only [List.map_append]
  refine List.Sublist.append ?_ (List.Sublist.refl _)
  rw [List.map_map]
  exact (List.filter_sublist.map Prod.fst)

/-- How the variables to equalize over are obtained when nothing is grouped: for plain values (without
':') and distinct names they are the listed series variables and fixed variables that are not time
columns. -/
theorem C01_variables_plain (series : List (String × List String)) (fix : List (String × List String))
    (hs : ∀ x ∈ series, x.1 ∉ timeColumns) (hf : ∀ x ∈ fix, x.1 ∉ timeColumns)
    (hd : ((series ++ fix).map Prod.fst).Nodup)
    (hplain : ∀ x ∈ series, ∀ v ∈ x.2, ':' ∉ v.toList) :
    addFixVars (seriesVarsForEE series) (fix.map Prod.fst) (fix.map Prod.snd) = .ok (series ++ fix) := by
  rw [C01_variables series fix (fun v => [v]) ?_ hd]
  · rw [List.filter_eq_self.mpr (by simpa using hs), List.filter_eq_self.mpr (by simpa using hf)]
    simp
  · intro x hx _ v hv
    refine ⟨by simp, by simp [List.intercalate], Or.inr ⟨by simpa using hplain x hx v hv, ?_⟩⟩
    rintro d ⟨y, m, d, h, n, s, b, -, -, -, -, rfl⟩ hi
    exact hplain x hx v hv (hi.subset (by simp))

/-- Two groups: models, and date-times; the valid time is not equalized over. -/
example : ungroup "GFS:NAM-12" = ["GFS", "NAM-12"] ∧
    ungroup "2020-01-01 00:00:00:2020-01-02 12:00:00" = ["2020-01-01 00:00:00", "2020-01-02 12:00:00"] := by
  decide +kernel

theorem group_example : IsGroup "2020-01-01 00:00:00:2020-01-02 12:00:00" ["2020-01-01 00:00:00", "2020-01-02 12:00:00"] := by
  refine ⟨by simp, by decide +kernel, Or.inl ?_⟩
  intro w hw
  rw [isDateTime_iff]
  simp only [List.mem_cons, List.not_mem_nil, or_false] at hw
  rcases hw with rfl | rfl <;> decide +kernel

example : addFixVars (seriesVarsForEE [("fcst_init_beg", ["2020-01-01 00:00:00"]),
      ("obs_time", ["2020-01-01 00:00:00:2020-01-02 12:00:00"])]) ["vx_mask", "LEAD"] [["CONUS"], ["12"]] =
    .ok [("obs_time", ["2020-01-01 00:00:00", "2020-01-02 12:00:00"]), ("vx_mask", ["CONUS"])] := by
  have := C01_variables [("fcst_init_beg", ["2020-01-01 00:00:00"]),
      ("obs_time", ["2020-01-01 00:00:00:2020-01-02 12:00:00"])] [("vx_mask", ["CONUS"]), ("LEAD", ["12"])]
      (fun _ => ["2020-01-01 00:00:00", "2020-01-02 12:00:00"]) (by
        intro x hx hn v hv
        simp only [List.mem_cons, List.not_mem_nil, or_false] at hx
        rcases hx with rfl | rfl
        · exact absurd (by decide) hn
        · simp only [List.mem_singleton] at hv
          subst hv
          exact group_example) (by decide)
  rw [show ([("vx_mask", ["CONUS"]), ("LEAD", ["12"])] : List (String × List String)).map Prod.fst = ["vx_mask", "LEAD"]
    from rfl] at this
  simpa [timeColumns] using this

end Metcalcpy.Props
