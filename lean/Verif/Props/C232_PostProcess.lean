/-
C232  What the post-processing of the table of correlations changes.
C233  The Bayes factors in the table.
-/
import Verif.Model.PostProcess
import Verif.Props.C120_CorrTable

namespace Metcalcpy

namespace Spec

/-- The cell after rounding numbers and arrays of floats to `n` decimals. -/
inductive CellRounded (n : ℕ) : PostCell → PostCell → Prop where
  | number (x y : ℝ) : IsRounded x n y → CellRounded n (.number x) (.number y)
  | floats (l m : List ℝ) : List.Forall₂ (fun x y => IsRounded x n y) l m → CellRounded n (.floats l) (.floats m)
  | bool (b : Bool) : CellRounded n (.bool b) (.bool b)
  | text (s : String) : CellRounded n (.text s) (.text s)
  | array (l : List PostCell) : CellRounded n (.array l) (.array l)

/-- The text of a Bayes factor: scientific notation from ten thousand on and down from one ten-thousandth, else positional. -/
noncomputable def bayesText (F : PostFormat) (x : ℝ) : String :=
  if 1 / 10000 < x ∧ x < 10000 then F.positional x else F.scientific x

end Spec

namespace Props
open Metcalcpy Spec

theorem lookup_options (k : String) : roundOptions.lookup k =
    if k = "round" then some .keep else if k = "round.column.CI95%" then some (.decimals 2)
    else if k = "round.column.BF10" then some .formatted else none := by
  unfold roundOptions
  simp only [List.lookup]
  by_cases h1 : k = "round"
  · simp [h1]
  by_cases h2 : k = "round.column.CI95%"
  · simp [h2]
  by_cases h3 : k = "round.column.BF10"
  · simp [h3]
  simp [h1, h2, h3, beq_false_of_ne]

theorem append_ne (a b c : String) (n : ℕ) (h1 : n < a.toList.length) (h2 : a.toList[n]? ≠ c.toList[n]?) : a ++ b ≠ c := by
  intro h
  have := congrArg String.toList h
  rw [String.toList_append] at this
  apply h2
  rw [← this, List.getElem?_append_left h1]

theorem append_eq (a b c : String) : a ++ b = a ++ c ↔ b = c := by
  constructor
  · intro h
    have := congrArg String.toList h
    rw [String.toList_append, String.toList_append] at this
    exact String.toList_inj.1 (List.append_cancel_left this)
  · rintro rfl; rfl

theorem roundSetting_eq (row col : String) : roundSettingFor row col =
    if col = "CI95%" then .decimals 2 else if col = "BF10" then .formatted else .keep := by
  have e1 : roundOptions.lookup ("round.cell.[" ++ row ++ "]x[" ++ col ++ "]") = none := by
    rw [lookup_options]
    have e : "round.cell.[" ++ row ++ "]x[" ++ col ++ "]" = "round.cell.[" ++ (row ++ "]x[" ++ col ++ "]") := by
      simp only [String.append_assoc]
    rw [e, if_neg (append_ne _ _ _ 5 (by decide) (by decide)), if_neg (append_ne _ _ _ 7 (by decide) (by decide)),
      if_neg (append_ne _ _ _ 7 (by decide) (by decide))]
  have e3 : roundOptions.lookup ("round.row." ++ row) = none := by
    rw [lookup_options]
    rw [if_neg (append_ne _ _ _ 5 (by decide) (by decide)), if_neg (append_ne _ _ _ 6 (by decide) (by decide)),
      if_neg (append_ne _ _ _ 6 (by decide) (by decide))]
  have e2 : roundOptions.lookup ("round.column." ++ col) =
      if col = "CI95%" then some (.decimals 2) else if col = "BF10" then some .formatted else none := by
    rw [lookup_options, if_neg (append_ne _ _ _ 5 (by decide) (by decide))]
    rw [show "round.column.CI95%" = "round.column." ++ "CI95%" from by decide, show "round.column.BF10" = "round.column." ++ "BF10" from by decide]
    simp only [append_eq]
  unfold roundSettingFor
  rw [e1, e2]
  dsimp only
  by_cases h1 : col = "CI95%"
  · simp [h1]
  by_cases h2 : col = "BF10"
  · simp [h2]
  simp only [if_neg h1, if_neg h2]
  rw [e3, lookup_options]
  rfl

/-! ### one cell -/

theorem postCell_frame {F : PostFormat} {d d' : PostFrame} {rc : String × String} (h : postCell F d rc = .ok d') :
    d'.rows = d.rows ∧ d'.cols = d.cols ∧ ∀ r c, c ≠ "CI95%" → c ≠ "BF10" → d'.cell r c = d.cell r c := by
  unfold postCell at h
  rw [roundSetting_eq] at h
  by_cases h1 : rc.2 = "CI95%"
  · rw [if_pos h1] at h
    dsimp only at h
    split at h <;> obtain rfl := Except.ok.inj h <;> refine ⟨rfl, rfl, fun r c hc _ => ?_⟩ <;> try rfl
    · dsimp only; rw [if_neg]; rintro ⟨e, -⟩; exact hc (e.trans h1)
    · dsimp only; rw [if_neg]; rintro ⟨e, -⟩; exact hc (e.trans h1)
  · rw [if_neg h1] at h
    by_cases h2 : rc.2 = "BF10"
    · rw [if_pos h2] at h
      dsimp only at h
      cases hf : formatBf F (d.cell rc.1 rc.2) with
      | error e => rw [hf] at h; cases h
      | ok v =>
        rw [hf] at h
        obtain rfl := Except.ok.inj h
        refine ⟨rfl, rfl, fun r c _ hc => ?_⟩
        dsimp only; rw [if_neg]; intro e; exact hc (e.trans h2)
    · rw [if_neg h2] at h
      obtain rfl := Except.ok.inj h
      exact ⟨rfl, rfl, fun _ _ _ _ => rfl⟩

theorem postCell_ci {F : PostFormat} {d d' : PostFrame} {rc : String × String} (h : postCell F d rc = .ok d') (r : String) :
    (rc = (r, "CI95%") → CellRounded 2 (d.cell r "CI95%") (d'.cell r "CI95%")) ∧
    (rc ≠ (r, "CI95%") → d'.cell r "CI95%" = d.cell r "CI95%") := by
  obtain ⟨r0, c0⟩ := rc
  unfold postCell at h
  rw [roundSetting_eq] at h
  dsimp only at h
  by_cases h1 : c0 = "CI95%"
  · subst h1
    rw [if_pos rfl] at h
    dsimp only at h
    constructor
    · intro e
      obtain rfl := (Prod.mk.inj e).1
      cases hc : d.cell r0 "CI95%" with
      | number x =>
        rw [hc] at h
        obtain rfl := Except.ok.inj h
        dsimp only
        rw [if_pos ⟨rfl, rfl⟩]
        exact .number _ _ (npRound_spec x 2)
      | floats l =>
        rw [hc] at h
        obtain rfl := Except.ok.inj h
        dsimp only
        rw [if_pos ⟨rfl, rfl⟩]
        refine .floats _ _ ?_
        rw [List.forall₂_map_right_iff]
        exact List.forall₂_same.2 fun x _ => npRound_spec x 2
      | bool b => rw [hc] at h; obtain rfl := Except.ok.inj h; rw [hc]; exact .bool b
      | text b => rw [hc] at h; obtain rfl := Except.ok.inj h; rw [hc]; exact .text b
      | array b => rw [hc] at h; obtain rfl := Except.ok.inj h; rw [hc]; exact .array b
    · intro e
      have hr : ¬ ("CI95%" = "CI95%" ∧ r = r0) := by
        rintro ⟨-, rfl⟩; exact e rfl
      split at h <;> obtain rfl := Except.ok.inj h <;> dsimp only <;> rw [if_neg hr]
  · rw [if_neg h1] at h
    refine ⟨fun e => absurd (Prod.mk.inj e).2 h1, fun _ => ?_⟩
    by_cases h2 : c0 = "BF10"
    · rw [if_pos h2] at h
      dsimp only at h
      cases hf : formatBf F (d.cell r0 c0) with
      | error e => rw [hf] at h; cases h
      | ok v =>
        rw [hf] at h
        obtain rfl := Except.ok.inj h
        dsimp only; rw [if_neg]; exact fun e => h1 e.symm
    · rw [if_neg h2] at h
      obtain rfl := Except.ok.inj h
      rfl

theorem postCell_bf_other {F : PostFormat} {d d' : PostFrame} {rc : String × String} (h : postCell F d rc = .ok d') (hne : rc.2 ≠ "BF10")
    (r : String) : d'.cell r "BF10" = d.cell r "BF10" := by
  unfold postCell at h
  rw [roundSetting_eq] at h
  by_cases h1 : rc.2 = "CI95%"
  · rw [if_pos h1] at h
    dsimp only at h
    have hr : ∀ r, ¬ ("BF10" = rc.2 ∧ r = rc.1) := by
      rintro r ⟨e, -⟩; exact hne e.symm
    split at h <;> obtain rfl := Except.ok.inj h <;> first | rfl | (dsimp only; rw [if_neg (hr r)])
  · rw [if_neg h1, if_neg hne] at h
    obtain rfl := Except.ok.inj h
    rfl

theorem postCell_bf (F : PostFormat) (d : PostFrame) (r0 : String) : postCell F d (r0, "BF10") =
    (formatBf F (d.cell r0 "BF10")).map fun v => { d with cell := fun r c =>
      if c = "BF10" then (if r = r0 then .text v else F.asText (d.cell r c)) else d.cell r c } := by
  unfold postCell
  rw [roundSetting_eq]
  rw [if_neg (by dsimp only; decide), if_pos rfl]
  dsimp only
  cases formatBf F (d.cell r0 "BF10") <;> rfl

/-! ### all cells -/

theorem fold_frame {F : PostFormat} : ∀ {ps : List (String × String)} {d d' : PostFrame}, ps.foldlM (postCell F) d = .ok d' →
    d'.rows = d.rows ∧ d'.cols = d.cols ∧ ∀ r c, c ≠ "CI95%" → c ≠ "BF10" → d'.cell r c = d.cell r c
  | [], d, d', h => by
    obtain rfl := Except.ok.inj h
    exact ⟨rfl, rfl, fun _ _ _ _ => rfl⟩
  | p :: ps, d, d', h => by
    rw [List.foldlM_cons] at h
    cases hp : postCell F d p with
    | error e => rw [hp] at h; cases h
    | ok d1 =>
      rw [hp] at h
      obtain ⟨a1, a2, a3⟩ := postCell_frame hp
      obtain ⟨b1, b2, b3⟩ := fold_frame (ps := ps) (d := d1) (d' := d') h
      exact ⟨b1.trans a1, b2.trans a2, fun r c h1 h2 => (b3 r c h1 h2).trans (a3 r c h1 h2)⟩

theorem fold_ci {F : PostFormat} (r : String) : ∀ {ps : List (String × String)} {d d' : PostFrame}, ps.Nodup → ps.foldlM (postCell F) d = .ok d' →
    ((r, "CI95%") ∈ ps → CellRounded 2 (d.cell r "CI95%") (d'.cell r "CI95%")) ∧
    ((r, "CI95%") ∉ ps → d'.cell r "CI95%" = d.cell r "CI95%")
  | [], d, d', _, h => by
    obtain rfl := Except.ok.inj h
    exact ⟨fun h => absurd h (by simp), fun _ => rfl⟩
  | p :: ps, d, d', hn, h => by
    rw [List.foldlM_cons] at h
    rw [List.nodup_cons] at hn
    cases hp : postCell F d p with
    | error e => rw [hp] at h; cases h
    | ok d1 =>
      rw [hp] at h
      obtain ⟨a1, a2⟩ := postCell_ci hp r
      obtain ⟨b1, b2⟩ := fold_ci r (ps := ps) (d := d1) (d' := d') hn.2 h
      by_cases e : p = (r, "CI95%")
      · refine ⟨fun _ => ?_, fun hc => absurd (by simp [e]) hc⟩
        rw [b2 (e ▸ hn.1)]
        exact a1 e
      · refine ⟨fun hm => ?_, fun hm => ?_⟩
        · rw [← a2 e]
          exact b1 ((List.mem_cons.1 hm).resolve_left fun h => e h.symm)
        · rw [← a2 e]
          exact b2 fun h => hm (List.mem_cons_of_mem _ h)

theorem fold_bf_other {F : PostFormat} (r : String) : ∀ {ps : List (String × String)} {d d' : PostFrame}, (∀ p ∈ ps, p.2 ≠ "BF10") →
    ps.foldlM (postCell F) d = .ok d' → d'.cell r "BF10" = d.cell r "BF10"
  | [], d, d', _, h => by
    obtain rfl := Except.ok.inj h
    rfl
  | p :: ps, d, d', hn, h => by
    rw [List.foldlM_cons] at h
    cases hp : postCell F d p with
    | error e => rw [hp] at h; cases h
    | ok d1 =>
      rw [hp] at h
      exact (fold_bf_other r (ps := ps) (fun q hq => hn q (by simp [hq])) h).trans (postCell_bf_other hp (hn p (by simp)) r)

theorem fold_bf_text {F : PostFormat} : ∀ {ps : List (String × String)} {d d' : PostFrame}, (∀ r, ∃ s, d.cell r "BF10" = .text s) →
    ps.foldlM (postCell F) d = .ok d' → ∀ r, d'.cell r "BF10" = d.cell r "BF10"
  | [], d, d', _, h, r => by
    obtain rfl := Except.ok.inj h
    rfl
  | p :: ps, d, d', ht, h, r => by
    rw [List.foldlM_cons] at h
    cases hp : postCell F d p with
    | error e => rw [hp] at h; cases h
    | ok d1 =>
      rw [hp] at h
      have hs : ∀ r, d1.cell r "BF10" = d.cell r "BF10" := by
        intro r
        by_cases hc : p.2 = "BF10"
        · obtain ⟨r0, c0⟩ := p
          obtain rfl : c0 = "BF10" := hc
          rw [postCell_bf] at hp
          obtain ⟨s0, hs0⟩ := ht r0
          rw [hs0] at hp
          obtain rfl := Except.ok.inj hp
          dsimp only
          rw [if_pos rfl]
          split
          · next e => rw [e, hs0]
          · obtain ⟨s, hs⟩ := ht r
            rw [hs]
            rfl
        · exact postCell_bf_other hp hc r
      rw [fold_bf_text (ps := ps) (fun r => by rw [hs r]; exact ht r) h r, hs r]

/-- C232.  Post-processing changes no column but `CI95%` and `BF10`, keeps the labels of rows and columns, and rounds the numbers
and the arrays of floats in `CI95%` to two decimals, in every row. -/
theorem C232_columns (F : PostFormat) (d d' : PostFrame) (hr : d.rows.Nodup) (hc : d.cols.Nodup) (h : postprocess F d = .ok d') :
    d'.rows = d.rows ∧ d'.cols = d.cols ∧ (∀ r c, c ≠ "CI95%" → c ≠ "BF10" → d'.cell r c = d.cell r c) ∧
    ("CI95%" ∈ d.cols → ∀ r ∈ d.rows, CellRounded 2 (d.cell r "CI95%") (d'.cell r "CI95%")) := by
  obtain ⟨a, b, c⟩ := fold_frame h
  refine ⟨a, b, c, fun hci r hrm => (fold_ci r ?_ h).1 ?_⟩
  · rw [show (d.rows.flatMap fun r => d.cols.map fun c => (r, c)) = d.rows ×ˢ d.cols from rfl]
    exact hr.product hc
  · rw [List.mem_flatMap]
    exact ⟨r, hrm, List.mem_map.2 ⟨_, hci, rfl⟩⟩

theorem fold_runs {F : PostFormat} : ∀ (ps : List (String × String)) (d : PostFrame),
    (∀ r, (∃ s, d.cell r "BF10" = .text s) ∨ ∃ x, d.cell r "BF10" = .number x) → ∃ d', ps.foldlM (postCell F) d = .ok d'
  | [], d, _ => ⟨d, rfl⟩
  | p :: ps, d, hb => by
    rw [List.foldlM_cons]
    have : ∃ d1, postCell F d p = .ok d1 ∧ ∀ r, (∃ s, d1.cell r "BF10" = .text s) ∨ ∃ x, d1.cell r "BF10" = .number x := by
      by_cases hc : p.2 = "BF10"
      · obtain ⟨r0, c0⟩ := p
        obtain rfl : c0 = "BF10" := hc
        rw [postCell_bf]
        have : ∃ v, formatBf F (d.cell r0 "BF10") = .ok v := by
          rcases hb r0 with ⟨s, hs⟩ | ⟨x, hx⟩
          · rw [hs]; exact ⟨_, rfl⟩
          · rw [hx]; exact ⟨_, rfl⟩
        obtain ⟨v, hv⟩ := this
        rw [hv]
        refine ⟨_, rfl, fun r => Or.inl ?_⟩
        dsimp only
        rw [if_pos rfl]
        split
        · exact ⟨_, rfl⟩
        · rcases hb r with ⟨s, hs⟩ | ⟨x, hx⟩
          · rw [hs]; exact ⟨_, rfl⟩
          · rw [hx]; exact ⟨_, rfl⟩
      · have : ∃ d1, postCell F d p = .ok d1 := by
          unfold postCell
          rw [roundSetting_eq, if_neg hc]
          by_cases h1 : p.2 = "CI95%"
          · rw [if_pos h1]
            dsimp only
            split <;> exact ⟨_, rfl⟩
          · rw [if_neg h1]
            exact ⟨_, rfl⟩
        obtain ⟨d1, h1⟩ := this
        exact ⟨d1, h1, fun r => by rw [postCell_bf_other h1 hc r]; exact hb r⟩
    obtain ⟨d1, h1, h2⟩ := this
    rw [h1]
    exact fold_runs ps d1 h2

/-- C232, no error: with numbers or texts in `BF10` (or no such column) post-processing succeeds. -/
theorem C232_runs (F : PostFormat) (d : PostFrame)
    (hb : ∀ r, (∃ s, d.cell r "BF10" = .text s) ∨ ∃ x, d.cell r "BF10" = .number x) : ∃ d', postprocess F d = .ok d' :=
  fold_runs _ _ hb

theorem formatBf_number (F : PostFormat) (x : ℝ) : formatBf F (.number x) = .ok (bayesText F x) := by
  unfold formatBf bayesText
  dsimp only
  by_cases h : 1 / 10000 < x ∧ x < 10000
  · rw [if_pos h, if_neg]
    push Not
    exact ⟨h.2, h.1⟩
  · rw [if_neg h, if_pos]
    by_contra hc
    push Not at hc
    exact h ⟨hc.2, hc.1⟩

/-- C233, extent: the Bayes factor of the first row is written as the format says; those of all other rows are written by `str`. -/
theorem C233_first_row (F : PostFormat) (d d' : PostFrame) (r0 : String) (rs : List String) (hr : d.rows = r0 :: rs) (hc : "BF10" ∈ d.cols)
    (x : String → ℝ) (hx : ∀ r, d.cell r "BF10" = .number (x r)) (h : postprocess F d = .ok d') :
    d'.cell r0 "BF10" = .text (bayesText F (x r0)) ∧ ∀ r, r ≠ r0 → d'.cell r "BF10" = .text (F.str (x r)) := by
  obtain ⟨c1, c2, hsplit, hn⟩ := List.eq_append_cons_of_mem hc
  unfold postprocess at h
  rw [hr, List.flatMap_cons, hsplit, List.map_append, List.append_assoc, List.map_cons, List.cons_append, List.foldlM_append] at h
  cases h1 : (c1.map fun c => (r0, c)).foldlM (postCell F) d with
  | error e => rw [h1] at h; cases h
  | ok d1 =>
    rw [h1] at h
    have e1 : ∀ r, d1.cell r "BF10" = .number (x r) := fun r => by
      rw [fold_bf_other r _ h1, hx]
      intro p hp
      obtain ⟨c, hcm, rfl⟩ := List.mem_map.1 hp
      rintro rfl
      exact hn hcm
    simp only [bind, Except.bind] at h
    rw [List.foldlM_cons, postCell_bf, e1, formatBf_number] at h
    simp only [Except.map, bind, Except.bind] at h
    generalize hd2 : ({ d1 with cell := fun r c =>
      if c = "BF10" then (if r = r0 then .text (bayesText F (x r0)) else F.asText (d1.cell r c)) else d1.cell r c } : PostFrame) = d2 at h
    have e2 : ∀ r, d2.cell r "BF10" = if r = r0 then .text (bayesText F (x r0)) else .text (F.str (x r)) := by
      intro r
      rw [← hd2]
      dsimp only
      rw [if_pos rfl, e1]
      rfl
    have e3 := fold_bf_text (d := d2) (fun r => by
      rw [e2]
      split <;> exact ⟨_, rfl⟩) h
    refine ⟨?_, fun r hne => ?_⟩
    · rw [e3, e2, if_pos rfl]
    · rw [e3, e2, if_neg hne]

/-- C233 (what holds): in a table of one row, such as that of `corr`, the Bayes factor is written as the format says. -/
theorem C233_single_row_partial (F : PostFormat) (d d' : PostFrame) (r0 : String) (hr : d.rows = [r0]) (hc : "BF10" ∈ d.cols)
    (x : String → ℝ) (hx : ∀ r, d.cell r "BF10" = .number (x r)) (h : postprocess F d = .ok d') :
    ∀ r ∈ d.rows, d'.cell r "BF10" = .text (bayesText F (x r)) := by
  intro r hm
  rw [hr] at hm
  obtain rfl := List.mem_singleton.1 hm
  exact (C233_first_row F d d' r [] hr hc x hx h).1

/-- A table with the Bayes factor 1/3 in two rows. -/
noncomputable def twoFactors : PostFrame := ⟨["pearson", "spearman"], ["r", "CI95%", "BF10"], fun _ c => if c = "CI95%" then .floats [1 / 8, 3] else .number (1 / 3)⟩

/-- A format that names its notation. -/
def namedFormat : PostFormat := ⟨fun _ => "0.3333333333333333", fun _ => "3.333e-01", fun _ => "0.333", fun _ => ""⟩

/-- C233, failure: in a table of two rows the second Bayes factor is not formatted. -/
theorem C233_second_row_counterexample :
    ∃ d', postprocess namedFormat twoFactors = .ok d' ∧ "spearman" ∈ twoFactors.rows ∧ twoFactors.cell "spearman" "BF10" = .number (1 / 3) ∧
      d'.cell "spearman" "BF10" ≠ .text (bayesText namedFormat (1 / 3)) := by
  have hx : ∀ r, twoFactors.cell r "BF10" = .number (1 / 3) := fun r => by
    unfold twoFactors
    dsimp only
    rw [if_neg (by decide)]
  obtain ⟨d', h⟩ := C232_runs namedFormat twoFactors fun r => Or.inr ⟨_, hx r⟩
  refine ⟨d', h, by simp [twoFactors], hx _, ?_⟩
  rw [(C233_first_row namedFormat twoFactors d' "pearson" ["spearman"] rfl (by simp [twoFactors]) (fun _ => 1 / 3) hx h).2 "spearman" (by decide)]
  rw [bayesText, if_pos (by norm_num)]
  simp [namedFormat]

/-- The table of two rows meets the hypotheses of C232; its bounds 1/8 and 3 become 0.12 and 3. -/
example : ∃ d', postprocess namedFormat twoFactors = .ok d' ∧ d'.cell "pearson" "r" = .number (1 / 3) ∧
    CellRounded 2 (.floats [1 / 8, 3]) (d'.cell "spearman" "CI95%") := by
  obtain ⟨d', h, -⟩ := C233_second_row_counterexample
  obtain ⟨-, -, h3, h4⟩ := C232_columns namedFormat twoFactors d' (by decide +kernel) (by decide +kernel) h
  refine ⟨d', h, ?_, ?_⟩
  · rw [h3 _ _ (by decide) (by decide)]
    simp [twoFactors]
  · have := h4 (by simp [twoFactors]) "spearman" (by simp [twoFactors])
    simpa [twoFactors] using this

example : IsRounded (1 / 8) 2 (12 / 100) := ⟨12, by norm_num, Or.inr ⟨by norm_num, by decide⟩⟩

end Props
end Metcalcpy
